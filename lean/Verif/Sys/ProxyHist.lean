import Verif.Sys.Frame2
/-! # The proxy's entries, deferred requests and links, event by event -/
namespace Verif.Sys
open Verif Verif.Db Verif.Gsup Verif.Hlr

/-! ## Outside distributed GSM nothing of it changes -/

/-- Entries, deferred requests and links stay, or the process was restarted. -/
def PFr (s t : Sys) : Prop := ∃ l, t.log = l ++ s.log ∧
  ((t.proxy = s.proxy ∧ t.pending = s.pending ∧ t.remotes = s.remotes)
    ∨ (.restart ∈ l ∧ t.proxy = [] ∧ t.pending = [] ∧ t.remotes = []))

theorem PFr.same {s t : Sys} (l : List Out) (h : t.log = l ++ s.log) (h1 : t.proxy = s.proxy)
    (h2 : t.pending = s.pending) (h3 : t.remotes = s.remotes) : PFr s t := ⟨l, h, .inl ⟨h1, h2, h3⟩⟩

theorem PFr.trans {s t u : Sys} (h : PFr s t) (h' : PFr t u) : PFr s u := by
  obtain ⟨l, hl, h⟩ := h
  obtain ⟨l', hl', h'⟩ := h'
  refine ⟨l' ++ l, by rw [hl', hl, List.append_assoc], ?_⟩
  rcases h' with ⟨a, b, c⟩ | ⟨r, a, b, c⟩
  · rcases h with ⟨a', b', c'⟩ | ⟨r, a', b', c'⟩
    · exact .inl ⟨a.trans a', b.trans b', c.trans c'⟩
    · exact .inr ⟨List.mem_append_right _ r, a.trans a', b.trans b', c.trans c'⟩
  · exact .inr ⟨List.mem_append_left _ r, a, b, c⟩

theorem sendReqResponse_out (cfg : Cfg) (s : Sys) (q : Req) (m : Msg) :
    ∃ l, sendReqResponse cfg s q m = { s with log := l ++ s.log } := by
  unfold sendReqResponse
  split
  · exact ⟨[], rfl⟩
  · split
    · exact ⟨[_], rfl⟩
    · exact ⟨[], rfl⟩

theorem pfr_prims (cfg : Cfg) : Prims0 cfg (fun _ => True) PFr where
  refl _ := .same [] rfl rfl rfl rfl
  trans := PFr.trans
  db _ _ _ := .same [] rfl rfl rfl rfl
  ub _ := .same [] rfl rfl rfl rfl
  crash s := ⟨[.restart], rfl, .inr ⟨by simp, rfl, rfl, rfl⟩⟩
  tx _ _ _ _ := .same [_] rfl rfl rfl rfl
  concl _ _ _ _ := .same [_] rfl rfl rfl rfl
  resp s q m _ _ := by
    obtain ⟨l, h⟩ := sendReqResponse_out cfg s q m
    rw [h]
    exact .same l rfl rfl rfl rfl

theorem respond_out (cfg : Cfg) (s : Sys) (q : Req) (m : Msg) (e f : Bool) :
    ∃ l, (respond cfg s q m e f).2 = { s with log := l ++ s.log } := by
  unfold respond
  dsimp only
  obtain ⟨l, h⟩ := sendReqResponse_out cfg s q (makeResponse m q.gsup e f).2
  split
  · split
    · exact ⟨[_], rfl⟩
    · rw [h]; exact ⟨_ :: l, rfl⟩
  · split
    · exact ⟨[], rfl⟩
    · exact ⟨l, h⟩

theorem pfr_dispatch (cfg : Cfg) (e : Env) (k : Conn) (q : Req) (s : Sys) : PFr s (dispatch cfg e k q s) := by
  have pr := pfr_prims cfg
  refine pr.dispatch e k trivial ?_ ?_ ?_
  · intro _
    exact pr.updLoc e trivial k (.same [] rfl rfl rfl rfl) (fun _ _ _ => .same [] rfl rfl rfl rfl)
  · intro h
    exact pr.procSs (fun _ _ _ => .same [] rfl rfl rfl rfl) e trivial h (fun _ _ _ _ => trivial)
  · refine pr.luRx trivial (fun _ _ => trivial) (fun _ _ => .same [] rfl rfl rfl rfl) ?_
    intro t lu _ _ _ _
    obtain ⟨l, h⟩ := respond_out cfg t lu.req { typ := UPDATE_LOCATION + 2 } ((UPDATE_LOCATION + 2) % 4 == 1) true
    unfold respondMsgt
    rw [h]
    exact .same l rfl rfl rfl rfl

/-! ## Deferred requests -/

/-- What becomes of a deferred request when it is let go. -/
def letGo (cfg : Cfg) (rs : List (Bytes × ConnId)) (a : Option Addr) (q : Req) : List Out :=
  (connectResult cfg a { routes := rs } q).log

theorem sendReqResponse_log0 (cfg : Cfg) (s : Sys) (q : Req) (m : Msg) :
    (sendReqResponse cfg s q m).log = (sendReqResponse cfg { routes := s.routes } q m).log ++ s.log := by
  unfold sendReqResponse
  dsimp only
  split
  · rfl
  · split <;> rfl

theorem respond_log0 (cfg : Cfg) (s : Sys) (q : Req) (m : Msg) (e f : Bool) :
    (respond cfg s q m e f).2.log = (respond cfg { routes := s.routes } q m e f).2.log ++ s.log := by
  unfold respond
  dsimp only
  split
  · split
    · rfl
    · simp only [Sys.emit]
      rw [sendReqResponse_log0]; rfl
  · split
    · rfl
    · exact sendReqResponse_log0 ..

theorem respondErr_log0 (cfg : Cfg) (s : Sys) (q : Req) (c : Cause) :
    (respondErr cfg s q c).log = (respondErr cfg { routes := s.routes } q c).log ++ s.log := by
  unfold respondErr
  split
  · rfl
  · exact respond_log0 ..

theorem connectResult_eq (cfg : Cfg) (a : Option Addr) (s : Sys) (q : Req) :
    connectResult cfg a s q = { s with log := letGo cfg s.routes a q ++ s.log } := by
  unfold letGo connectResult forwardToRemote
  cases a with
  | some a =>
    dsimp only
    split
    · rfl
    · rw [respondErr_frame, respondErr_log0]
  | none =>
    dsimp only
    split
    · rw [respond_frame, respond_log0]
    · rw [respondErr_frame, respondErr_log0]

theorem popAll_eq (cfg : Cfg) (a : Option Addr) (l : List Req) (s : Sys) :
    l.foldl (connectResult cfg a) s
      = { s with log := (l.reverse.flatMap (letGo cfg s.routes a)) ++ s.log } := by
  induction l generalizing s with
  | nil => rfl
  | cons q l ih =>
    rw [List.foldl_cons, ih, connectResult_eq]
    simp

theorem deferredPop_eq (cfg : Cfg) (imsi : Bytes) (a : Option Addr) (s : Sys) :
    deferredPop cfg imsi a s = { s with
      pending := s.pending.filter (fun q => !(q.gsup.imsi == imsi))
      log := ((s.pending.filter (·.gsup.imsi == imsi)).reverse.flatMap (letGo cfg s.routes a)) ++ s.log } := by
  unfold deferredPop
  rw [popAll_eq]

/-- The deferred requests of the subscribers in `l` whose home HLR is at `a`, in the order in which they are
let go. -/
def waitFor (a : Addr) (l : List ProxyEntry) (p : List Req) : List Req :=
  (l.filter (fun x => decide (x.data.addr = a))).flatMap (fun x => p.filter (fun q => q.gsup.imsi == x.data.imsi))

/-- The request's subscriber has an entry in `l` with the address `a`. -/
def isFor (a : Addr) (l : List ProxyEntry) (q : Req) : Bool :=
  l.any (fun x => decide (x.data.addr = a) && (q.gsup.imsi == x.data.imsi))

theorem connectResultCb_go (cfg : Cfg) (a : Addr) (up : Bool) (l : List ProxyEntry)
    (hn : (l.map (·.data.imsi)).Nodup) (s : Sys) :
    l.foldl (fun s x => if x.data.addr = a then deferredPop cfg x.data.imsi (if up then some a else none) s else s) s
      = { s with
          pending := s.pending.filter (fun q => !isFor a l q)
          log := ((waitFor a l s.pending).reverse.flatMap
            (letGo cfg s.routes (if up then some a else none))) ++ s.log } := by
  induction l generalizing s with
  | nil =>
    simp only [List.foldl_nil, waitFor, isFor]
    simp [List.filter_eq_self.2 (fun _ _ => rfl)]
  | cons x l ih =>
    rw [List.map_cons, List.nodup_cons] at hn
    rw [List.foldl_cons, ih hn.2]
    by_cases c : x.data.addr = a
    · rw [if_pos c, deferredPop_eq]
      dsimp only
      have e1 : waitFor a l (s.pending.filter (fun q => !(q.gsup.imsi == x.data.imsi))) = waitFor a l s.pending := by
        have gen : ∀ l' : List ProxyEntry, (∀ y ∈ l', y.data.imsi ≠ x.data.imsi) →
            l'.flatMap (fun y => (s.pending.filter (fun q => !(q.gsup.imsi == x.data.imsi))).filter
              (fun q => q.gsup.imsi == y.data.imsi))
            = l'.flatMap (fun y => s.pending.filter (fun q => q.gsup.imsi == y.data.imsi)) := by
          intro l' h
          induction l' with
          | nil => rfl
          | cons y l' ih' =>
            rw [List.flatMap_cons, List.flatMap_cons, ih' (fun z hz => h z (List.mem_cons_of_mem _ hz)), List.filter_filter]
            congr 1
            apply List.filter_congr
            intro q _
            have hy := h y (by simp)
            by_cases hq : q.gsup.imsi = y.data.imsi
            · simp [hq, hy]
            · simp [hq]
        apply gen
        intro y hy he
        apply hn.1
        rw [← he]
        exact List.mem_map.2 ⟨y, (List.mem_filter.1 hy).1, rfl⟩
      have e2 : waitFor a (x :: l) s.pending
          = s.pending.filter (fun q => q.gsup.imsi == x.data.imsi) ++ waitFor a l s.pending := by
        unfold waitFor
        rw [List.filter_cons_of_pos (by simpa using c), List.flatMap_cons]
      rw [e1, e2, List.reverse_append, List.flatMap_append, List.append_assoc, List.filter_filter]
      congr 1
      apply List.filter_congr
      intro q _
      simp only [isFor, List.any_cons, c, decide_true, Bool.true_and, Bool.not_or]
      rw [Bool.and_comm]
    · rw [if_neg c]
      have e2 : waitFor a (x :: l) s.pending = waitFor a l s.pending := by
        unfold waitFor
        rw [List.filter_cons_of_neg (by simpa using c)]
      rw [e2]
      congr 1
      apply List.filter_congr
      intro q _
      simp [isFor, List.any_cons, c]

theorem connectResultCb_eq (cfg : Cfg) (a : Addr) (up : Bool) (s : Sys)
    (hn : (s.proxy.map (·.data.imsi)).Nodup) :
    connectResultCb cfg a up s = { s with
        pending := s.pending.filter (fun q => !isFor a s.proxy q)
        log := ((waitFor a s.proxy s.pending).reverse.flatMap
          (letGo cfg s.routes (if up then some a else none))) ++ s.log } :=
  connectResultCb_go cfg a up s.proxy hn s

/-- When nothing waits there is nothing to let go. -/
theorem waitFor_gone (a : Addr) (l : List ProxyEntry) (p : List Req) :
    waitFor a l (p.filter (fun q => !isFor a l q)) = [] := by
  unfold waitFor
  rw [List.flatMap_eq_nil_iff]
  intro x hx
  rw [List.filter_eq_nil_iff]
  intro q hq
  have h1 := (List.mem_filter.1 hq).2
  have h2 := List.mem_filter.1 hx
  intro hc
  rw [isFor] at h1
  have : l.any (fun x => decide (x.data.addr = a) && (q.gsup.imsi == x.data.imsi)) = true :=
    List.any_eq_true.2 ⟨x, h2.1, by simp [by simpa using h2.2, by simpa using hc]⟩
  rw [this] at h1
  cases h1

theorem repeatCb_eq (cfg : Cfg) (a : Addr) (up : Bool) (n : Nat) (s : Sys)
    (hn : (s.proxy.map (·.data.imsi)).Nodup) :
    repeatN (n + 1) (connectResultCb cfg a up) s = connectResultCb cfg a up s := by
  have idem : ∀ n (t : Sys), t.proxy = s.proxy → t.pending.filter (fun q => !isFor a t.proxy q) = t.pending →
      waitFor a t.proxy t.pending = [] → repeatN n (connectResultCb cfg a up) t = t := by
    intro n
    induction n with
    | zero => intros; rfl
    | succ n ih =>
      intro t h1 h2 h3
      show repeatN n _ (connectResultCb cfg a up t) = t
      have : connectResultCb cfg a up t = t := by
        rw [connectResultCb_eq _ _ _ _ (by rw [h1]; exact hn), h2, h3]
        rfl
      rw [this]
      exact ih t h1 h2 h3
  show repeatN n _ (connectResultCb cfg a up s) = _
  rw [connectResultCb_eq _ _ _ _ hn]
  apply idem
  · rfl
  · dsimp only
    rw [List.filter_filter]
    congr 1
    funext q
    simp
  · exact waitFor_gone a s.proxy s.pending

/-! ## Entries -/

/-- The state of an entry in one domain. -/
def ProxySub.dom (d : ProxySub) (cs : Bool) : ProxyDom := if cs then d.cs else d.ps

/-- What an entry says about the serving node. -/
def ProxyDom.served (d : ProxyDom) : IpaName × Int × IpaName := (d.vlr, d.lastLu, d.via)

section
variable (clk : Int) (L : Bytes → Bool → IpaName → Prop) (V : Bytes → Bool → IpaName × Int × IpaName → Prop)

/-- What the entry `d` says about each domain is nothing, or was said by an entry in `l`, or
is new (`L`: the node that asks, `V`: the serving node). -/
structure SubOk (l : List ProxyEntry) (d : ProxySub) : Prop where
  prelim : ∀ cs, (d.dom cs).prelim = {}
    ∨ (∃ x ∈ l, x.data.imsi = d.imsi ∧ (x.data.dom cs).prelim = (d.dom cs).prelim)
    ∨ L d.imsi cs (d.dom cs).prelim
  served : ∀ cs, (d.dom cs).served = ({}, 0, {})
    ∨ (∃ x ∈ l, x.data.imsi = d.imsi ∧ (x.data.dom cs).served = (d.dom cs).served)
    ∨ V d.imsi cs (d.dom cs).served

/-- From `l` to `l'`: entries are the old ones or new ones dated `clk`; none is lost, and
there is still one per IMSI. -/
structure Grows (l l' : List ProxyEntry) : Prop where
  from_ : ∀ y ∈ l', y ∈ l ∨ (y.lastUpdate = clk ∧ SubOk L V l y.data)
  kept : ∀ x ∈ l, ∃ y ∈ l', y.data.imsi = x.data.imsi ∧ (y = x ∨ y.lastUpdate = clk)
  nodup : (l.map (·.data.imsi)).Nodup → (l'.map (·.data.imsi)).Nodup
end

section
variable {clk : Int} {L : Bytes → Bool → IpaName → Prop} {V : Bytes → Bool → IpaName × Int × IpaName → Prop}

theorem Grows.refl (l : List ProxyEntry) : Grows clk L V l l :=
  ⟨fun _ h => .inl h, fun x h => ⟨x, h, rfl, .inl rfl⟩, id⟩

theorem Grows.of_eq {l l' : List ProxyEntry} (h : l' = l) : Grows clk L V l l' := by
  rw [h]; exact .refl l

theorem SubOk.back {l l' : List ProxyEntry} {d : ProxySub} (hg : Grows clk L V l l') (h : SubOk L V l' d) :
    SubOk L V l d := by
  refine ⟨fun cs => ?_, fun cs => ?_⟩
  · rcases h.prelim cs with h | ⟨x, hx, hi, he⟩ | h
    · exact .inl h
    · rcases hg.from_ x hx with hx | ⟨-, hx⟩
      · exact .inr (.inl ⟨x, hx, hi, he⟩)
      · have := hx.prelim cs
        rw [he, hi] at this
        exact this
    · exact .inr (.inr h)
  · rcases h.served cs with h | ⟨x, hx, hi, he⟩ | h
    · exact .inl h
    · rcases hg.from_ x hx with hx | ⟨-, hx⟩
      · exact .inr (.inl ⟨x, hx, hi, he⟩)
      · have := hx.served cs
        rw [he, hi] at this
        exact this
    · exact .inr (.inr h)

theorem Grows.trans {l l' l'' : List ProxyEntry} (h : Grows clk L V l l') (h' : Grows clk L V l' l'') :
    Grows clk L V l l'' := by
  refine ⟨fun y hy => ?_, fun x hx => ?_, fun hn => h'.nodup (h.nodup hn)⟩
  · rcases h'.from_ y hy with hy | ⟨hc, hy⟩
    · exact h.from_ y hy
    · exact .inr ⟨hc, hy.back h⟩
  · obtain ⟨y, hy, hi, hc⟩ := h.kept x hx
    obtain ⟨z, hz, hi', hc'⟩ := h'.kept y hy
    refine ⟨z, hz, hi'.trans hi, ?_⟩
    rcases hc' with rfl | hc'
    · exact hc
    · exact .inr hc'

theorem byImsi_some {l : List ProxyEntry} {imsi : Bytes} {d : ProxySub} (h : proxyByImsi l imsi = some d) :
    d.imsi = imsi ∧ ∃ x ∈ l, x.data = d := by
  unfold proxyByImsi at h
  obtain ⟨x, hx, rfl⟩ := Option.map_eq_some_iff.1 h
  refine ⟨?_, x, List.mem_of_find?_eq_some hx, rfl⟩
  have := List.find?_some hx
  simpa using this

theorem byImsi_none {l : List ProxyEntry} {imsi : Bytes} (h : proxyByImsi l imsi = none) :
    ∀ x ∈ l, x.data.imsi ≠ imsi := by
  unfold proxyByImsi at h
  rw [Option.map_eq_none_iff, List.find?_eq_none] at h
  intro x hx
  simpa using h x hx

theorem SubOk.of_mem {l : List ProxyEntry} {x : ProxyEntry} (h : x ∈ l) : SubOk L V l x.data :=
  ⟨fun _ => .inr (.inl ⟨x, h, rfl, rfl⟩), fun _ => .inr (.inl ⟨x, h, rfl, rfl⟩)⟩

theorem SubOk.of_byImsi {l : List ProxyEntry} {imsi : Bytes} {d : ProxySub} (h : proxyByImsi l imsi = some d) :
    SubOk L V l d := by
  obtain ⟨-, x, hx, rfl⟩ := byImsi_some h
  exact .of_mem hx

theorem SubOk.fresh (l : List ProxyEntry) (imsi : Bytes) : SubOk L V l { imsi := imsi } :=
  ⟨fun cs => .inl (by cases cs <;> rfl), fun cs => .inl (by cases cs <;> rfl)⟩

theorem SubOk.addr {l : List ProxyEntry} {d : ProxySub} (h : SubOk L V l d) (a : Addr) :
    SubOk L V l { d with addr := a } :=
  ⟨fun cs => by have := h.prelim cs; cases cs <;> exact this,
   fun cs => by have := h.served cs; cases cs <;> exact this⟩

theorem SubOk.msisdn {l : List ProxyEntry} {d : ProxySub} (h : SubOk L V l d) (a : Bytes) :
    SubOk L V l { d with msisdn := a } :=
  ⟨fun cs => by have := h.prelim cs; cases cs <;> exact this,
   fun cs => by have := h.served cs; cases cs <;> exact this⟩

theorem setFirst_imsi (x : ProxyEntry) (l : List ProxyEntry) :
    (setFirst x l).map (·.data.imsi) = l.map (·.data.imsi) := by
  induction l with
  | nil => rfl
  | cons y l ih =>
    unfold setFirst
    split
    · rename_i h
      have : y.data.imsi = x.data.imsi := by simpa using h
      simp [this]
    · simp [ih]

theorem setFirst_mem {x y : ProxyEntry} {l : List ProxyEntry} (h : y ∈ setFirst x l) : y = x ∨ y ∈ l := by
  induction l with
  | nil => exact .inr h
  | cons z l ih =>
    unfold setFirst at h
    split at h
    · rcases List.mem_cons.1 h with h | h
      · exact .inl h
      · exact .inr (List.mem_cons_of_mem _ h)
    · rcases List.mem_cons.1 h with h | h
      · exact .inr (h ▸ List.mem_cons_self ..)
      · rcases ih h with h | h
        · exact .inl h
        · exact .inr (List.mem_cons_of_mem _ h)

theorem setFirst_kept {x y : ProxyEntry} {l : List ProxyEntry} (h : y ∈ l) :
    y ∈ setFirst x l ∨ (y.data.imsi = x.data.imsi ∧ x ∈ setFirst x l) := by
  induction l with
  | nil => cases h
  | cons z l ih =>
    unfold setFirst
    split
    · rename_i hz
      rcases List.mem_cons.1 h with rfl | h
      · exact .inr ⟨by simpa using hz, List.mem_cons_self ..⟩
      · exact .inl (List.mem_cons_of_mem _ h)
    · rcases List.mem_cons.1 h with rfl | h
      · exact .inl (List.mem_cons_self ..)
      · rcases ih h with h | ⟨h, h'⟩
        · exact .inl (List.mem_cons_of_mem _ h)
        · exact .inr ⟨h, List.mem_cons_of_mem _ h'⟩

theorem grows_put {s : Sys} {d : ProxySub} (h : SubOk L V s.proxy d) :
    Grows clk L V s.proxy (proxyPut clk d s).proxy := by
  unfold proxyPut
  dsimp only
  split
  · refine ⟨fun y hy => ?_, fun x hx => ?_, fun hn => ?_⟩
    · rcases setFirst_mem hy with rfl | hy
      · exact .inr ⟨rfl, h⟩
      · exact .inl hy
    · rcases setFirst_kept (x := { lastUpdate := clk, data := d }) hx with h | ⟨h, h'⟩
      · exact ⟨x, h, rfl, .inl rfl⟩
      · exact ⟨_, h', h.symm, .inr rfl⟩
    · rw [setFirst_imsi]; exact hn
  · rename_i hno
    refine ⟨fun y hy => ?_, fun x hx => ⟨x, List.mem_cons_of_mem _ hx, rfl, .inl rfl⟩, fun hn => ?_⟩
    · rcases List.mem_cons.1 hy with rfl | hy
      · exact .inr ⟨rfl, h⟩
      · exact .inl hy
    · rw [List.map_cons, List.nodup_cons]
      refine ⟨fun hm => ?_, hn⟩
      obtain ⟨x, hx, he⟩ := List.mem_map.1 hm
      have : proxyByImsi s.proxy d.imsi = none := by simpa using hno
      exact byImsi_none this x hx he

/-- After storing it, `d` is the entry of its IMSI. -/
theorem byImsi_put (clk : Int) (d : ProxySub) (s : Sys) : proxyByImsi (proxyPut clk d s).proxy d.imsi = some d := by
  unfold proxyPut
  dsimp only
  split
  · rename_i h
    generalize s.proxy = l at h
    induction l with
    | nil => simp [proxyByImsi] at h
    | cons z l ih =>
      unfold setFirst
      dsimp only
      split
      · simp [proxyByImsi]
      · rename_i hz
        have hz' : (z.data.imsi == d.imsi) = false := by simpa using hz
        simp only [proxyByImsi, List.find?_cons, hz'] at h ih ⊢
        exact ih h
  · simp [proxyByImsi]

/-- ... and other entries are as before. -/
theorem byImsi_put_ne (clk : Int) (d : ProxySub) (s : Sys) {imsi : Bytes} (hne : imsi ≠ d.imsi) :
    proxyByImsi (proxyPut clk d s).proxy imsi = proxyByImsi s.proxy imsi := by
  have hne' : (d.imsi == imsi) = false := by simpa using fun h => hne h.symm
  unfold proxyPut
  dsimp only
  split
  · generalize s.proxy = l
    induction l with
    | nil => rfl
    | cons z l ih =>
      unfold setFirst
      dsimp only
      split
      · rename_i hz
        have hz' : z.data.imsi = d.imsi := by simpa using hz
        simp only [proxyByImsi, List.find?_cons, hz', hne']
      · simp only [proxyByImsi, List.find?_cons] at ih ⊢
        cases hq : (z.data.imsi == imsi)
        · simpa using ih
        · rfl
  · simp only [proxyByImsi, List.find?_cons, hne']

/-! ## What the handlers do to the entries -/

/-- Letting requests go changes only the list of deferred requests and the log. -/
theorem foldCb_frame (cfg : Cfg) (a : Addr) (up : Bool) (xs : List ProxyEntry) (s : Sys) :
    ∃ p l, xs.foldl (fun s x => if x.data.addr = a then deferredPop cfg x.data.imsi (if up then some a else none) s
      else s) s = { s with pending := p, log := l ++ s.log } := by
  induction xs generalizing s with
  | nil => exact ⟨s.pending, [], rfl⟩
  | cons x xs ih =>
    rw [List.foldl_cons]
    by_cases c : x.data.addr = a
    · rw [if_pos c, deferredPop_eq]
      obtain ⟨p, l, h⟩ := ih { s with
        pending := s.pending.filter (fun q => !(q.gsup.imsi == x.data.imsi))
        log := ((s.pending.filter (·.gsup.imsi == x.data.imsi)).reverse.flatMap
          (letGo cfg s.routes (if up then some a else none))) ++ s.log }
      rw [h]
      exact ⟨p, _, by rw [← List.append_assoc]⟩
    · rw [if_neg c]
      exact ih s

theorem connectResultCb_frame (cfg : Cfg) (a : Addr) (up : Bool) (s : Sys) :
    ∃ p l, connectResultCb cfg a up s = { s with pending := p, log := l ++ s.log } :=
  foldCb_frame cfg a up s.proxy s

theorem repeatCb_frame (cfg : Cfg) (a : Addr) (up : Bool) (n : Nat) (s : Sys) :
    ∃ p l, repeatN n (connectResultCb cfg a up) s = { s with pending := p, log := l ++ s.log } := by
  induction n generalizing s with
  | zero => exact ⟨s.pending, [], rfl⟩
  | succ n ih =>
    obtain ⟨p, l, h⟩ := connectResultCb_frame cfg a up s
    show ∃ p l, repeatN n _ (connectResultCb cfg a up s) = _
    rw [h]
    obtain ⟨p', l', h'⟩ := ih { s with pending := p, log := l ++ s.log }
    rw [h']
    exact ⟨p', _, by rw [← List.append_assoc]⟩

theorem connectRemote_frame (cfg : Cfg) (e : Env) (a : Addr) (s : Sys) :
    ∃ p r l, connectRemote cfg e a s = { s with pending := p, remotes := r, log := l ++ s.log } := by
  unfold connectRemote
  split
  · split
    · obtain ⟨p, l, h⟩ := connectResultCb_frame cfg a true s
      rw [h]; exact ⟨p, s.remotes, l, rfl⟩
    · exact ⟨s.pending, _, [], rfl⟩
  · split
    · exact ⟨s.pending, _, [], rfl⟩
    · obtain ⟨p, l, h⟩ := connectResultCb_frame cfg a false s
      rw [h]; exact ⟨p, s.remotes, l, rfl⟩

/-- `t` is `s` but for distributed GSM and new log entries. -/
def DFr (s t : Sys) : Prop :=
  ∃ x p r l, t = { s with proxy := x, pending := p, remotes := r, log := l ++ s.log }

theorem DFr.refl (s : Sys) : DFr s s := ⟨s.proxy, s.pending, s.remotes, [], rfl⟩

theorem DFr.trans {s t u : Sys} (h : DFr s t) (h' : DFr t u) : DFr s u := by
  obtain ⟨x, p, r, l, rfl⟩ := h
  obtain ⟨x', p', r', l', rfl⟩ := h'
  exact ⟨x', p', r', l' ++ l, by rw [List.append_assoc]⟩

theorem connectRemote_dfr (cfg : Cfg) (e : Env) (a : Addr) (s : Sys) : DFr s (connectRemote cfg e a s) := by
  obtain ⟨p, r, l, h⟩ := connectRemote_frame cfg e a s
  rw [h]; exact ⟨_, p, r, l, rfl⟩

theorem proxyPut_dfr (c : Int) (d : ProxySub) (s : Sys) : DFr s (proxyPut c d s) :=
  ⟨_, s.pending, s.remotes, [], rfl⟩

theorem connectRemote_proxy (cfg : Cfg) (e : Env) (a : Addr) (s : Sys) :
    (connectRemote cfg e a s).proxy = s.proxy := by
  obtain ⟨p, r, l, h⟩ := connectRemote_frame cfg e a s
  rw [h]

theorem remoteResolved_dfr (cfg : Cfg) (e : Env) (d : ProxySub) (a : Addr) (s : Sys) :
    DFr s (remoteResolved cfg e d a s) := by
  unfold remoteResolved
  split
  · exact .refl s
  · dsimp only
    split
    · exact (proxyPut_dfr ..).trans (connectRemote_dfr ..)
    · exact proxyPut_dfr ..

theorem grows_resolved (cfg : Cfg) (e : Env) {d : ProxySub} (a : Addr) {s : Sys} (h : SubOk L V s.proxy d) :
    Grows e.clock L V s.proxy (remoteResolved cfg e d a s).proxy := by
  unfold remoteResolved
  split
  · exact .refl _
  · dsimp only
    have h1 := grows_put (clk := e.clock) (h.addr a)
    split
    · rw [connectRemote_proxy]; exact h1
    · exact h1

theorem ackToRemote_dfr (e : Env) (d : ProxySub) (q : Req) (s : Sys) : DFr s (ackToRemote e d q s) := by
  unfold ackToRemote
  split
  · dsimp only
    split
    · exact proxyPut_dfr ..
    · exact .refl s
  · exact .refl s

/-- The Location Update of request `q` says in which domain its sender serves. -/
def asks (q : Req) (imsi : Bytes) (cs : Bool) (n : IpaName) : Prop :=
  q.gsup.typ = UPDATE_LOCATION ∧ q.gsup.imsi = imsi ∧ q.gsup.cnDomain = (if cs then 2 else 1) ∧ q.source = n

theorem ackToSub_imsi (d : ProxySub) (q : Req) : (ackToSub d q).imsi = d.imsi := by
  unfold ackToSub; split
  · rfl
  · split <;> rfl

theorem ackToSub_addr (d : ProxySub) (q : Req) : (ackToSub d q).addr = d.addr := by
  unfold ackToSub; split
  · rfl
  · split <;> rfl

theorem grows_ackTo (e : Env) {d : ProxySub} {q : Req} {s : Sys} (h : SubOk L V s.proxy d)
    (hi : d.imsi = q.gsup.imsi) (hL : ∀ cs n, asks q q.gsup.imsi cs n → L q.gsup.imsi cs n) :
    Grows e.clock L V s.proxy (ackToRemote e d q s).proxy := by
  unfold ackToRemote
  split
  · rename_i ht
    dsimp only
    split
    · apply grows_put
      have hdi := ackToSub_imsi d q
      refine ⟨fun cs => ?_, fun cs => ?_⟩
      · have hp := h.prelim cs
        rw [hdi]
        unfold ackToSub
        split
        · rename_i hd
          cases cs with
          | true => exact .inr (.inr (hi ▸ hL true _ ⟨ht, rfl, hd, rfl⟩))
          | false => exact hp
        · split
          · rename_i hd
            cases cs with
            | true => exact hp
            | false => exact .inr (.inr (hi ▸ hL false _ ⟨ht, rfl, hd, rfl⟩))
          · exact hp
      · have hp := h.served cs
        rw [hdi]
        unfold ackToSub
        split
        · cases cs <;> exact hp
        · split
          · cases cs <;> exact hp
          · exact hp
    · exact .refl _
  · exact .refl _

theorem forwardToRemoteHlr_dfr (cfg : Cfg) (e : Env) (d : ProxySub) (q : Req) (s : Sys) :
    DFr s (forwardToRemoteHlr cfg e d q s) := by
  unfold forwardToRemoteHlr
  dsimp only
  have h1 := ackToRemote_dfr e d q s
  have h2 : ∀ t, DFr t (deferReq q t) := fun t => ⟨_, _, _, [], rfl⟩
  split
  · exact h1.trans (h2 _)
  · split
    · split
      · refine h1.trans ?_
        rw [connectResult_eq]; exact ⟨_, _, _, _, rfl⟩
      · exact h1.trans ((h2 _).trans (connectRemote_dfr ..))
    · exact h1.trans ((h2 _).trans (connectRemote_dfr ..))

theorem grows_forward (cfg : Cfg) (e : Env) {d : ProxySub} {q : Req} {s : Sys} (h : SubOk L V s.proxy d)
    (hi : d.imsi = q.gsup.imsi) (hL : ∀ cs n, asks q q.gsup.imsi cs n → L q.gsup.imsi cs n) :
    Grows e.clock L V s.proxy (forwardToRemoteHlr cfg e d q s).proxy := by
  unfold forwardToRemoteHlr
  dsimp only
  have h1 := grows_ackTo e h hi hL
  split
  · exact h1
  · split
    · split
      · rw [connectResult_eq]; exact h1
      · rw [connectRemote_proxy]; exact h1
    · rw [connectRemote_proxy]; exact h1

theorem proxied_dfr (cfg : Cfg) (e : Env) (q : Req) (s : Sys) : DFr s (proxied cfg e q s) := by
  unfold proxied
  split
  · exact forwardToRemoteHlr_dfr ..
  · have h1 := proxyPut_dfr e.clock { imsi := q.gsup.imsi } s
    split
    · have h2 := h1.trans (remoteResolved_dfr cfg e { imsi := q.gsup.imsi } e.gateway _)
      split
      · refine h2.trans ?_
        rw [respondErr_frame, respondErr_log0]
        exact ⟨_, _, _, _, rfl⟩
      · exact h2.trans (forwardToRemoteHlr_dfr ..)
    · exact h1.trans (forwardToRemoteHlr_dfr ..)

theorem grows_proxied (cfg : Cfg) (e : Env) {q : Req} {s : Sys}
    (hL : ∀ cs n, asks q q.gsup.imsi cs n → L q.gsup.imsi cs n) :
    Grows e.clock L V s.proxy (proxied cfg e q s).proxy := by
  unfold proxied
  split
  · rename_i d hd
    exact grows_forward cfg e (.of_byImsi hd) (byImsi_some hd).1 hL
  · have h1 : Grows e.clock L V s.proxy (proxyPut e.clock { imsi := q.gsup.imsi } s).proxy :=
      grows_put (.fresh _ _)
    split
    · have h2 := h1.trans (grows_resolved cfg e (d := { imsi := q.gsup.imsi }) e.gateway (.fresh _ _))
      split
      · rw [respondErr_frame]; exact h2
      · rename_i d hd
        exact h2.trans (grows_forward cfg e (.of_byImsi hd) (byImsi_some hd).1 hL)
    · exact h1.trans (grows_forward cfg e (.fresh _ _) rfl hL)

/-! ## Messages from remote HLRs -/

theorem ackFromRemote_some {cfg : Cfg} {e : Env} {d : ProxySub} {m : Msg} {n v : IpaName} {s t : Sys}
    (h : ackFromRemote cfg e d m n v s = some t) :
    (t = s ∧ m.typ ≠ UPDATE_LOCATION + 2)
    ∨ (∃ x, m.typ = INSERT_DATA ∧ t = proxyPut e.clock { d with msisdn := x } s)
    ∨ (∃ y, m.typ = UPDATE_LOCATION + 2 ∧ ackLuResult e.clock d n v = some y ∧ t = proxyPut e.clock y s) := by
  unfold ackFromRemote at h
  split at h
  · rename_i ht
    have hne : m.typ ≠ UPDATE_LOCATION + 2 := by rw [ht]; decide
    split at h
    · exact .inl ⟨(Option.some.inj h).symm, hne⟩
    · split at h
      · exact .inl ⟨(Option.some.inj h).symm, hne⟩
      · split at h
        · exact .inl ⟨(Option.some.inj h).symm, hne⟩
        · exact .inr (.inl ⟨_, ht, (Option.some.inj h).symm⟩)
  · split at h
    · rename_i ht
      obtain ⟨y, hy, rfl⟩ := Option.map_eq_some_iff.1 h
      exact .inr (.inr ⟨y, ht, hy, rfl⟩)
    · rename_i ht
      exact .inl ⟨(Option.some.inj h).symm, ht⟩

theorem ackLuResult_some {clk : Int} {d y : ProxySub} {n v : IpaName} (h : ackLuResult clk d n v = some y) :
    y.imsi = d.imsi ∧ y.addr = d.addr ∧ y.msisdn = d.msisdn
    ∧ (ipaCmp n d.cs.prelim = 0 ∨ ipaCmp n d.ps.prelim = 0)
    ∧ ∀ cs, (ipaCmp n (d.dom cs).prelim = 0 →
        y.dom cs = { vlr := n, lastLu := clk, via := if ipaCmp v n ≠ 0 then v else {} })
      ∧ (ipaCmp n (d.dom cs).prelim ≠ 0 → y.dom cs = d.dom cs) := by
  unfold ackLuResult at h
  dsimp only at h
  split at h
  · cases h
  · rename_i hc
    have hc' : ipaCmp n d.cs.prelim = 0 ∨ ipaCmp n d.ps.prelim = 0 := Decidable.not_not.1 hc
    cases h
    refine ⟨rfl, rfl, rfl, hc', fun cs => ⟨fun h => ?_, fun h => ?_⟩⟩
    · cases cs <;> exact if_pos h
    · cases cs <;> exact if_neg h

/-- All that a refused message from a remote HLR causes is an error reply to it. -/
def OnlyReply (a : Addr) (l : List Out) : Prop := l = [] ∨ ∃ m', l = [.remote a m' none]

theorem errReply_out (cfg : Cfg) (s : Sys) (r : Remote) (m : Msg) (c : Cause) :
    ∃ l, errReply cfg s r m c = { s with log := l ++ s.log } ∧ OnlyReply r.addr l := by
  unfold errReply
  split
  · exact ⟨[], rfl, .inl rfl⟩
  · dsimp only
    generalize (Msg.mk (toError m.typ) _ _ _ _ _ _ _ _ _ _ _ _ _ _ _) = x
    split
    · exact ⟨[_], rfl, .inr ⟨_, rfl⟩⟩
    · exact ⟨[], rfl, .inl rfl⟩

/-- A message from a remote HLR for the subscriber with entry `d` can be handed to
connection `k`: the destination is registered, and the entry accepts it. -/
structure Passes (cfg : Cfg) (e : Env) (m : Msg) (s : Sys) (d : ProxySub) (k : Conn) (t : Sys) : Prop where
  entry : proxyByImsi s.proxy m.imsi = some d
  dst : (ipaSet {} m.dst).1 = 0
  route : routeFind s.routes (ipaSet {} m.dst).2.name = some k.id
  conn : s.conn? k.id = some k
  ack : ackFromRemote cfg e d m (ipaSet {} m.dst).2 k.name s = some t

theorem forwardToVlr_cases (cfg : Cfg) (e : Env) (d : ProxySub) (m : Msg) (s : Sys)
    (hd : proxyByImsi s.proxy m.imsi = some d) :
    (∃ k t, Passes cfg e m s d k t ∧
      ((cfg.enc m = true ∧ forwardToVlr cfg e d m s = (true, t.emit (.tx k.id m none)))
        ∨ (cfg.enc m = false ∧ forwardToVlr cfg e d m s = (false, t))))
    ∨ ((∀ k t, ¬ Passes cfg e m s d k t) ∧ forwardToVlr cfg e d m s = (false, s)) := by
  unfold forwardToVlr
  dsimp only
  by_cases h1 : (ipaSet {} m.dst).1 = 0
  · rw [if_neg (fun h => h h1)]
    cases h2 : routeFind s.routes (ipaSet {} m.dst).2.name with
    | none => exact .inr ⟨fun k t h => (by have := h.route; rw [h2] at this; cases this), rfl⟩
    | some c =>
      dsimp only
      cases h3 : s.conn? c with
      | none =>
        refine .inr ⟨fun k t h => ?_, rfl⟩
        have hr := h.route
        rw [h2] at hr
        cases hr
        rw [h.conn] at h3
        cases h3
      | some k =>
        have hk : k.id = c := (conn?_some h3).2
        subst hk
        dsimp only
        cases h4 : ackFromRemote cfg e d m (ipaSet {} m.dst).2 k.name s with
        | none =>
          refine .inr ⟨fun k' t h => ?_, rfl⟩
          have hr := h.route
          rw [h2] at hr
          have hc := h.conn
          rw [← Option.some.inj hr, h3] at hc
          cases hc
          rw [h.ack] at h4
          cases h4
        | some t =>
          refine .inl ⟨k, t, ⟨hd, h1, h2, h3, h4⟩, ?_⟩
          dsimp only
          cases cfg.enc m with
          | true => exact .inl ⟨rfl, rfl⟩
          | false => exact .inr ⟨rfl, rfl⟩
  · rw [if_pos h1]
    exact .inr ⟨fun k t h => h1 h.dst, rfl⟩

/-- What a message from a remote HLR does. -/
theorem remoteRx_cases (cfg : Cfg) (e : Env) {a : Addr} (m : Msg) {s : Sys} {r : Remote}
    (hr : s.remote? a = some r) :
    (∃ d k t, imsiValid m.imsi = true ∧ Passes cfg e m (s.emit (.remoteRx a m)) d k t ∧
      ((cfg.enc m = true ∧ remoteRx cfg e a m s = t.emit (.tx k.id m none))
        ∨ (cfg.enc m = false ∧ ∃ l, remoteRx cfg e a m s = { t with log := l ++ t.log } ∧ OnlyReply a l)))
    ∨ ((imsiValid m.imsi = true → ∀ d k t, ¬ Passes cfg e m (s.emit (.remoteRx a m)) d k t) ∧
        ∃ l, remoteRx cfg e a m s = { s with log := l ++ .remoteRx a m :: s.log } ∧ OnlyReply a l) := by
  have ha : r.addr = a := by
    have := List.find?_some hr
    simpa using this
  unfold remoteRx
  rw [hr]
  dsimp only
  by_cases hv : imsiValid m.imsi = true
  · rw [if_neg (by simp [hv])]
    cases hd : proxyByImsi (s.emit (.remoteRx a m)).proxy m.imsi with
    | none =>
      dsimp only
      obtain ⟨l, h1, h2⟩ := errReply_out cfg (s.emit (.remoteRx a m)) r m .netFail
      refine .inr ⟨fun _ d k t h => ?_, l, h1, ha ▸ h2⟩
      rw [h.entry] at hd
      cases hd
    | some d =>
      dsimp only
      rcases forwardToVlr_cases cfg e d m _ hd with ⟨k, t, hp, ⟨h1, h2⟩ | ⟨h1, h2⟩⟩ | ⟨hn, h2⟩
      · rw [h2]
        exact .inl ⟨d, k, t, hv, hp, .inl ⟨h1, rfl⟩⟩
      · rw [h2]
        obtain ⟨l, h3, h4⟩ := errReply_out cfg t r m .netFail
        exact .inl ⟨d, k, t, hv, hp, .inr ⟨h1, l, h3, ha ▸ h4⟩⟩
      · rw [h2]
        obtain ⟨l, h3, h4⟩ := errReply_out cfg (s.emit (.remoteRx a m)) r m .netFail
        refine .inr ⟨fun _ d' k t h => ?_, l, h3, ha ▸ h4⟩
        have := h.entry
        rw [hd] at this
        cases this
        exact hn k t h
  · rw [if_pos (by simpa using hv)]
    obtain ⟨l, h3, h4⟩ := errReply_out cfg (s.emit (.remoteRx a m)) r m .invMandInfo
    exact .inr ⟨fun h => absurd h hv, l, h3, ha ▸ h4⟩

/-- A result for the node that asked in domain `cs`, which is so recorded. -/
def records (clk : Int) (m : Msg) (l : List ProxyEntry) (imsi : Bytes) (cs : Bool)
    (w : IpaName × Int × IpaName) : Prop :=
  m.typ = UPDATE_LOCATION + 2 ∧ m.imsi = imsi ∧ (ipaSet {} m.dst).1 = 0 ∧ w.1 = (ipaSet {} m.dst).2 ∧ w.2.1 = clk
    ∧ ∃ x ∈ l, x.data.imsi = imsi ∧ ipaCmp (ipaSet {} m.dst).2 (x.data.dom cs).prelim = 0

theorem grows_ackFrom {cfg : Cfg} {e : Env} {d : ProxySub} {m : Msg} {v : IpaName} {s t : Sys}
    (hd : proxyByImsi s.proxy m.imsi = some d) (hs : (ipaSet {} m.dst).1 = 0)
    (h : ackFromRemote cfg e d m (ipaSet {} m.dst).2 v s = some t) :
    Grows e.clock (fun _ _ _ => False) (records e.clock m s.proxy) s.proxy t.proxy := by
  rcases ackFromRemote_some h with ⟨rfl, -⟩ | ⟨x, -, rfl⟩ | ⟨y, ht, hy, rfl⟩
  · exact .refl _
  · exact grows_put ((SubOk.of_byImsi hd).msisdn x)
  · obtain ⟨h1, -, -, -, h3⟩ := ackLuResult_some hy
    obtain ⟨hi, x, hx, rfl⟩ := byImsi_some hd
    have h0 : SubOk (fun _ _ _ => False) (records e.clock m s.proxy) s.proxy x.data := .of_mem hx
    apply grows_put
    refine ⟨fun cs => ?_, fun cs => ?_⟩
    · rw [h1]
      by_cases c : ipaCmp (ipaSet {} m.dst).2 (x.data.dom cs).prelim = 0
      · rw [(h3 cs).1 c]; exact .inl rfl
      · rw [(h3 cs).2 c]; exact h0.prelim cs
    · rw [h1]
      by_cases c : ipaCmp (ipaSet {} m.dst).2 (x.data.dom cs).prelim = 0
      · rw [(h3 cs).1 c]
        exact .inr (.inr ⟨ht, hi.symm, hs, rfl, rfl, x, hx, rfl, c⟩)
      · rw [(h3 cs).2 c]; exact h0.served cs

theorem grows_remoteRx (cfg : Cfg) (e : Env) (a : Addr) (m : Msg) (s : Sys) :
    Grows e.clock (fun _ _ _ => False) (records e.clock m s.proxy) s.proxy (remoteRx cfg e a m s).proxy := by
  cases hr : s.remote? a with
  | none =>
    unfold remoteRx
    rw [hr]
    exact .refl _
  | some r =>
    rcases remoteRx_cases cfg e m hr with ⟨d, k, t, -, hp, ⟨-, h⟩ | ⟨-, l, h, -⟩⟩ | ⟨-, l, h, -⟩
    · rw [h]; exact grows_ackFrom (s := s.emit (.remoteRx a m)) (t := t) hp.entry hp.dst hp.ack
    · rw [h]; exact grows_ackFrom (s := s.emit (.remoteRx a m)) (t := t) hp.entry hp.dst hp.ack
    · rw [h]; exact .refl _

/-! ## One event -/

/-- The clock an event reads. -/
def Ev.clock : Ev → Int
  | .rx _ _ e => e.clock
  | .remoteRx _ _ e => e.clock
  | .lookup _ _ e => e.clock
  | _ => 0

/-- The event is a Location Update of the node named `n`. -/
def Ev.asks (s : Sys) (ev : Ev) (imsi : Bytes) (cs : Bool) (n : IpaName) : Prop :=
  ∃ c m e k, ev = .rx c (some m) e ∧ s.conn? c = some k ∧ (m.src ≠ [] → (ipaSet k.name m.src).1 = 0)
    ∧ Verif.Sys.asks (mkReq k s.nextReq m) imsi cs n

/-- The event is an Update Location Result that is recorded. -/
def Ev.records (s : Sys) (ev : Ev) (imsi : Bytes) (cs : Bool) (w : IpaName × Int × IpaName) : Prop :=
  ∃ a m e, ev = .remoteRx a m e ∧ Verif.Sys.records e.clock m s.proxy imsi cs w

/-- A query without a usable result. -/
def Failed (res : Option (Addr × Addr)) : Prop :=
  ∀ v, res = some v → v.1.nonzero = false ∧ v.2.nonzero = false

theorem PFr.grows {clk : Int} {L : Bytes → Bool → IpaName → Prop} {V : Bytes → Bool → IpaName × Int × IpaName → Prop}
    {s t : Sys} (h : PFr s t) :
    Grows clk L V s.proxy t.proxy ∨ (t.proxy = [] ∧ ∃ l, t.log = l ++ s.log ∧ .restart ∈ l) := by
  obtain ⟨l, hl, ⟨h1, -, -⟩ | ⟨hr, h1, -, -⟩⟩ := h
  · exact .inl (.of_eq h1)
  · exact .inr ⟨h1, l, hl, hr⟩

theorem grows_readCb (cfg : Cfg) (e : Env) (k : Conn) (q : Req) (s : Sys) {L : Bytes → Bool → IpaName → Prop}
    {V : Bytes → Bool → IpaName × Int × IpaName → Prop}
    (hL : ∀ cs n, asks q q.gsup.imsi cs n → L q.gsup.imsi cs n) :
    Grows e.clock L V s.proxy (readCb cfg e k q s).proxy
    ∨ ((readCb cfg e k q s).proxy = [] ∧ ∃ l, (readCb cfg e k q s).log = l ++ s.log ∧ .restart ∈ l) := by
  have pr := pfr_prims cfg
  rw [readCb_eq]
  split
  · exact (pr.readCbForward s (q := q) trivial).grows
  · split
    · split
      · exact (pr.crash s).grows
      · split
        · exact (pfr_dispatch ..).grows
        · exact .inl (grows_proxied cfg e hL)
    · exact (pfr_dispatch ..).grows

theorem grows_rx (cfg : Cfg) (e : Env) (c : ConnId) (mo : Option Msg) (s : Sys) {L : Bytes → Bool → IpaName → Prop}
    {V : Bytes → Bool → IpaName × Int × IpaName → Prop}
    (hL : ∀ k m imsi cs n, s.conn? c = some k → mo = some m → (m.src ≠ [] → (ipaSet k.name m.src).1 = 0) →
      asks (mkReq k s.nextReq m) imsi cs n → L imsi cs n) :
    Grows e.clock L V s.proxy (rx cfg e c mo s).proxy
    ∨ ((rx cfg e c mo s).proxy = [] ∧ ∃ l, (rx cfg e c mo s).log = l ++ s.log ∧ .restart ∈ l) := by
  unfold rx
  split
  · exact .inl (.refl _)
  · rename_i k hk
    dsimp only
    split
    · exact .inl (.refl _)
    · rename_i m
      split
      · rw [respondMsgt_frame]; exact .inl (.refl _)
      · rename_i hset
        have hset' : m.src ≠ [] → (ipaSet k.name m.src).1 = 0 := by
          intro hne
          apply Decidable.byContradiction
          intro h0
          exact hset ⟨by cases hm : m.src with
            | nil => exact absurd hm hne
            | cons x l => rfl, h0⟩
        split
        · rw [respondErr_frame]; exact .inl (.refl _)
        · have hL' : ∀ cs n, asks (mkReq k s.nextReq m) (mkReq k s.nextReq m).gsup.imsi cs n →
              L (mkReq k s.nextReq m).gsup.imsi cs n := fun cs n h => hL k m _ cs n hk rfl hset' h
          unfold connRx
          split
          · rcases grows_readCb cfg e k (mkReq k s.nextReq m)
              { s with nextReq := s.nextReq + 1, log := .rx s.nextReq c (some m) :: s.log } hL' (V := V)
              with h | ⟨h1, l, h2, h3⟩
            · exact .inl h
            · exact .inr ⟨h1, l ++ [.rx s.nextReq c (some m)], by rw [h2]; simp, by simp [h3]⟩
          · dsimp only
            split
            · rw [respondMsgt_frame]; exact .inl (.refl _)
            · rcases grows_readCb cfg e k (mkReq k s.nextReq m)
                { s with nextReq := s.nextReq + 1, log := .rx s.nextReq c (some m) :: s.log,
                         routes := (routeAdd s.routes k.id (mkReq k s.nextReq m).source.name).2 } hL' (V := V)
                with h | ⟨h1, l, h2, h3⟩
              · exact .inl h
              · exact .inr ⟨h1, l ++ [.rx s.nextReq c (some m)], by rw [h2]; simp, by simp [h3]⟩

/-- What one event does to the entries. -/
theorem step_proxy (cfg : Cfg) (s : Sys) (ev : Ev) :
    Grows ev.clock (ev.asks s) (ev.records s) s.proxy (step cfg s ev).proxy
    ∨ (∃ imsi res e, ev = .lookup imsi res e ∧ Failed res ∧ (step cfg s ev).proxy = proxyRemove imsi s.proxy)
    ∨ (∃ c, ev = .proxyGc c ∧ (step cfg s ev).proxy = s.proxy.filter (proxyKeeps c))
    ∨ ((step cfg s ev).proxy = [] ∧ ∃ l, (step cfg s ev).log = l ++ s.log ∧ .restart ∈ l) := by
  have pr := pfr_prims cfg
  have fin : ∀ {L V clk} {t : Sys}, PFr s t → Grows clk L V s.proxy t.proxy
      ∨ (∃ imsi res e, ev = .lookup imsi res e ∧ Failed res ∧ t.proxy = proxyRemove imsi s.proxy)
      ∨ (∃ c, ev = .proxyGc c ∧ t.proxy = s.proxy.filter (proxyKeeps c))
      ∨ (t.proxy = [] ∧ ∃ l, t.log = l ++ s.log ∧ .restart ∈ l) := by
    intro L V clk t h
    rcases h.grows (clk := clk) (L := L) (V := V) with h | h
    · exact .inl h
    · exact .inr (.inr (.inr h))
  unfold step
  by_cases hu : s.ub = true
  · rw [if_pos hu]; exact .inl (.refl _)
  · rw [if_neg hu]
    cases ev with
    | connect => exact .inl (.refl _)
    | ccm c sernr =>
      dsimp only
      split
      · exact .inl (.refl _)
      · unfold ccmCb
        split <;> exact .inl (.refl _)
    | close c =>
      dsimp only
      split <;> exact .inl (.refl _)
    | rx c m e =>
      dsimp only
      have hL : ∀ k m' imsi cs n, s.conn? c = some k → m = some m' →
          (m'.src ≠ [] → (ipaSet k.name m'.src).1 = 0) → asks (mkReq k s.nextReq m') imsi cs n →
          Ev.asks s (.rx c m e) imsi cs n := by
        rintro k m' imsi cs n hk rfl h0 h
        exact ⟨c, m', e, k, rfl, hk, h0, h⟩
      rcases grows_rx cfg e c m s (V := Ev.records s (.rx c m e)) hL with h | h
      · exact .inl h
      · exact .inr (.inr (.inr h))
    | luTimeout nr => exact fin (pr.luTimeout nr (fun _ _ => trivial) (fun _ _ => .same [] rfl rfl rfl rfl))
    | ssTimeout imsi id =>
      exact fin (pr.ssTimeout (fun _ _ _ => .same [] rfl rfl rfl rfl) imsi id (fun _ _ _ _ => trivial))
    | db op sc => exact fin (pr.withDb (api_op trivial) (pr.refl s) (fun a d _ h => h))
    | notify imsi sc =>
      refine fin (pr.withDb (api_getByImsi _) (pr.refl s) (fun a d _ h => ?_))
      split
      · exact pr.trans h (pr.notify _ _ _)
      · exact h
    | nam imsi val isPs sc sc' =>
      refine fin (pr.withDb (api_getByImsi _) (pr.refl s) (fun a d _ h => ?_))
      split
      · exact pr.trans h (pr.nam _ _ _ _ _)
      · exact h
    | remoteUp a =>
      dsimp only
      unfold remoteUp
      split
      · exact .inl (.refl _)
      · rename_i r _
        obtain ⟨p, l, h⟩ := repeatCb_frame cfg a true r.cbs (setRemote { r with up := true, cbs := 0 } s)
        rw [h]
        exact .inl (.refl _)
    | remoteDown a => exact .inl (.refl _)
    | remoteLost a =>
      dsimp only
      unfold remoteLost
      split <;> exact .inl (.refl _)
    | remoteRx a m e =>
      dsimp only
      have h := grows_remoteRx cfg e a m s
      refine .inl ⟨fun y hy => ?_, h.kept, h.nodup⟩
      rcases h.from_ y hy with h | ⟨h, h'⟩
      · exact .inl h
      · refine .inr ⟨h, ⟨fun cs => ?_, fun cs => ?_⟩⟩
        · rcases h'.prelim cs with h | h | h
          · exact .inl h
          · exact .inr (.inl h)
          · exact h.elim
        · rcases h'.served cs with h | h | h
          · exact .inl h
          · exact .inr (.inl h)
          · exact .inr (.inr ⟨a, m, e, rfl, h⟩)
    | lookup imsi res e =>
      dsimp only
      have hdel : (proxyDel cfg imsi s).proxy = proxyRemove imsi s.proxy := by
        unfold proxyDel
        dsimp only
        rw [deferredPop_eq]
      unfold lookupResult
      split
      · exact .inr (.inl ⟨imsi, none, e, rfl, fun v h => (by cases h), hdel⟩)
      · rename_i v4 v6
        split
        · rename_i hz
          refine .inr (.inl ⟨imsi, _, e, rfl, fun v h => ?_, hdel⟩)
          cases h
          simpa using hz
        · split
          · exact .inl (.refl _)
          · rename_i d hd
            exact .inl (grows_resolved cfg e _ (.of_byImsi hd))
    | proxyGc clock => exact .inr (.inr (.inl ⟨clock, rfl, rfl⟩))
    | kill => exact fin (pr.crash s)

end

end Verif.Sys

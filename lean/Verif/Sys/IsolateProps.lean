import Verif.Sys.Isolate
/-!
# C78: what is done for one subscriber does not disturb another
-/
namespace Verif.Sys.Props
open Verif Verif.Db Verif.Gsup Verif.Hlr

/-! ## Specification -/

/-- The event is about subscriber `B`: a message with the IMSI, the outcome of a lookup of the IMSI, a timeout of a
procedure or session of the subscriber, a command for the subscriber or the subscriber's rows, the link to the
subscriber's home HLR comes up, or the proxy's entry is too old. -/
def Concerns (s : Sys) (B : Bytes) : Ev → Prop
  | .rx _ (some m) _ => m.imsi = B
  | .remoteRx _ m _ => m.imsi = B
  | .lookup i _ _ => i = B
  | .ssTimeout i _ => i = B
  | .notify i _ => i = B
  | .nam i _ _ _ _ => i = B
  | .luTimeout nr => ∃ lu ∈ s.lus, lu.req.nr = nr ∧ lu.subscr.imsi = B
  | .db op _ => op.hits B (s.db.subs.filter (·.imsi == B))
  | .remoteUp a => ∃ x ∈ s.proxy, x.data.imsi = B ∧ x.data.addr = a
  | .proxyGc clock => ∃ x ∈ s.proxy, x.data.imsi = B ∧ proxyKeeps clock x = false
  | .rx _ none _ | .connect | .ccm _ _ | .close _ | .remoteDown _ | .remoteLost _ | .kill => False

/-- If the event makes the HLR set up a link, then the attempt can be made. -/
def ClientsOk : Ev → Prop
  | .rx _ _ e => e.connectOk = true
  | .lookup _ _ e => e.connectOk = true
  | _ => True

/-- From `s` to `t` all that is stored about `B` stays the same, nothing with the IMSI `B` is sent to anybody, and what is
under way for `B` goes on, unless the process is restarted. -/
structure LeftAlone (B : Bytes) (s t : Sys) : Prop where
  stored : dataOf B t.db = dataOf B s.db
  quiet : ∃ l, t.log = l ++ s.log ∧ (∀ o ∈ l, Out.about o ≠ some B) ∧ (.restart ∈ l ∨ stateOf B t = stateOf B s)

/-- None of the events, at its time, is about `B`. -/
def NoneConcern (B : Bytes) : Sys → List (Cfg × Ev) → Prop
  | _, [] => True
  | s, x :: l => ¬ Concerns s B x.2 ∧ ClientsOk x.2 ∧ NoneConcern B (step x.1 s x.2) l

/-! ## Proof -/

theorem sub_imsi {s : Sys} (hi : IdentitiesOk s.db) {imsi : Bytes} {sc : Script} {rc : Int} {row : SubRow} {d : Db}
    (h : exec (getByImsi imsi) s.db sc = ((some (rc, some row)), d)) :
    (HlrSubscr.ofRow row).imsi = imsi ∧ strlcpy 16 (HlrSubscr.ofRow row).imsi = imsi := by
  have hp : Post (fun d => IdentitiesOk d) (getByImsi imsi) (fun o _ => ∀ rc row, o = some (rc, some row) → row.imsi = imsi ∧ Digits 6 15 row.imsi) := by
    unfold getByImsi dbSel
    refine Post.bind (fun o _ => ∀ row, o = some (.row row) → row.imsi = imsi ∧ Digits 6 15 row.imsi) (Post.stmt ?_ ?_ ?_) ?_ ?_
    · intro d hd row hr
      have hr := Option.some.inj hr
      unfold sqlSel at hr
      dsimp only at hr
      split at hr
      · rename_i r hf
        cases hr
        exact ⟨by simpa using List.find?_some hf, (hd _ (List.mem_of_find?_eq_some hf)).1⟩
      · cases hr
    · intro d _ row hr; cases hr
    · intro d _ row hr; cases hr
    · intro d _ rc row hr; cases hr
    · intro a
      cases a with
      | row r => exact Post.pure fun d hd rc row hr => by cases hr; exact hd r rfl
      | done => exact Post.pure fun d hd rc row hr => by cases hr
      | error => exact Post.pure fun d hd rc row hr => by cases hr
  have := hp.exec s.db sc hi rc row (congrArg Prod.fst h)
  have hv : imsiValid imsi = true := isNDigits_spec.2 (by rw [← this.1]; exact this.2)
  have e1 : (HlrSubscr.ofRow row).imsi = imsi := by
    show strlcpy 16 row.imsi = imsi
    rw [this.1]; exact strlcpy_valid hv
  exact ⟨e1, by rw [e1]; exact strlcpy_valid hv⟩

theorem iso_step {B : Bytes} {cfg : Cfg} {s : Sys} (hr : Reach s) (hi : IdentitiesOk s.db) {ev : Ev} (hc : ¬ Concerns s B ev)
    (he : ClientsOk ev) (hrow : ∀ v, Held B v s.db → v.rows = s.db.subs.filter (·.imsi == B)) : Iso B s (step cfg s ev) := by
  have hk := reach_known hr
  by_cases hu : s.ub = true
  · unfold step; rw [if_pos hu]; exact .refl s
  unfold step
  rw [if_neg hu]
  cases ev with
  | connect => exact ⟨fun _ h => h, [.connected _], rfl, fun o ho => by rw [List.mem_singleton.1 ho]; simp [Out.about], .inr rfl⟩
  | ccm c n =>
    dsimp only
    split
    · exact .refl s
    · unfold ccmCb
      split
      · exact ⟨fun _ h => h, [.closed _], rfl, fun o ho => by rw [List.mem_singleton.1 ho]; simp [Out.about], .inr rfl⟩
      · exact ⟨fun _ h => h, [.closed _], rfl, fun o ho => by rw [List.mem_singleton.1 ho]; simp [Out.about], .inr rfl⟩
      · exact .of rfl rfl rfl
  | close c =>
    dsimp only
    split
    · exact .refl s
    · exact ⟨fun _ h => h, [.closed _], rfl, fun o ho => by rw [List.mem_singleton.1 ho]; simp [Out.about], .inr rfl⟩
  | rx c m e =>
    refine iso_rx s hk he c fun x hx => ?_
    subst hx
    exact hc
  | luTimeout nr => exact iso_luTimeout s nr hk.lus fun lu hl hn hb => hc ⟨lu, hl, hn, hb⟩
  | ssTimeout imsi id => exact iso_ssTimeout s hc id
  | db op sc =>
    have hop : ∀ d, (exec op.run s.db sc).2 = d → ∀ v, Held B v s.db → Held B v d := by
      rintro d rfl v hv
      exact (held_op op (by rw [hrow v hv]; exact hc)).exec _ _ hv
    dsimp only
    unfold withDb
    have h1 : Iso B s { s with db := (exec op.run s.db sc).2 } :=
      ⟨hop _ rfl, [], rfl, fun _ h => (by cases h), .inr rfl⟩
    split
    · exact h1.trans (iso_crash _)
    · exact h1
  | notify imsi sc =>
    refine iso_withDb (held_getByImsi _) (.refl s) fun a d hd h => ?_
    split
    · exact h.trans (iso_notify _ (by rw [(sub_imsi hi hd).2]; exact hc))
    · exact h
  | nam imsi val ps sc sc' =>
    refine iso_withDb (held_getByImsi _) (.refl s) fun a d hd h => ?_
    split
    · exact h.trans (iso_nam _ _ (by rw [(sub_imsi hi hd).1]; exact hc) _ _)
    · exact h
  | remoteUp a =>
    dsimp only
    unfold remoteUp
    split
    · exact .refl s
    · rename_i r hr
      have h1 : Iso B s (setRemote { r with up := true, cbs := 0 } s) := .of rfl rfl rfl
      cases r.cbs with
      | zero => exact h1
      | succ n =>
        rw [repeatCb_eq cfg a true n _ (by exact hk.nodup)]
        refine h1.trans (iso_cb _ a true (.inl ?_))
        intro x hx hb ha
        exact hc ⟨x, hx, hb, ha⟩
  | remoteDown a => exact .of rfl rfl rfl
  | remoteLost a =>
    dsimp only
    unfold remoteLost
    split
    · exact .refl s
    · exact .of rfl rfl rfl
  | remoteRx a m e => exact iso_remoteRx s e a hc
  | lookup imsi res e => exact iso_lookup s hk he hc res
  | proxyGc clock =>
    refine .of rfl rfl ?_
    show stateOf B (proxyCleanup clock s) = stateOf B s
    unfold stateOf proxyCleanup
    dsimp only
    rw [filter_sub]
    intro x hx hb
    cases hp : proxyKeeps clock x with
    | true => rfl
    | false => exact absurd ⟨x, hx, by simpa using hb, hp⟩ hc
  | kill => exact iso_crash s

theorem iso_run {B : Bytes} {v : SubData} {evs : List (Cfg × Ev)} {s : Sys} (hr : Reach s) (hh : Held B v s.db) (hn : NoneConcern B s evs) :
    Iso B s (run s evs) := by
  induction evs generalizing s with
  | nil => exact .refl s
  | cons x l ih =>
    obtain ⟨h1, h2, h3⟩ := hn
    have hi := iso_step (cfg := x.1) hr hh.2.2 h1 h2 (fun v h => rows_eq h.1)
    exact hi.trans (ih (hr.step x.1 x.2) (hi.db v hh) h3)

/-! ## C78 -/

/-- Whatever happens that is not about a subscriber, in whatever order: requests of others, of any kind, with any outcome and
any failures of the database; other connections; other links; commands for others; restarts.  Everything stored about the
subscriber stays the same, nothing is sent with the subscriber's IMSI, and the subscriber's location updates, USSD sessions
and waiting requests go on, unless the process is restarted. -/
theorem c78_left_alone_partial {s : Sys} (hr : Reach s) (hu : Unique s.db) (hi : IdentitiesOk s.db) {B : Bytes} {evs : List (Cfg × Ev)}
    (hn : NoneConcern B s evs) : LeftAlone B s (run s evs) := by
  have h := iso_run hr (v := dataOf B s.db) ⟨rfl, hu, hi⟩ hn
  exact ⟨(h.db _ ⟨rfl, hu, hi⟩).1, h.log⟩

/-- So also a single event. -/
theorem c78_event_partial {s : Sys} (hr : Reach s) (hu : Unique s.db) (hi : IdentitiesOk s.db) {B : Bytes} {cfg : Cfg} {ev : Ev}
    (hc : ¬ Concerns s B ev) (he : ClientsOk ev) : LeftAlone B s (step cfg s ev) :=
  c78_left_alone_partial (evs := [(cfg, ev)]) hr hu hi ⟨hc, he, trivial⟩

/-- No request waits for a home HLR to which the link is up, in any history: if the address of the home HLR is known, then
there is no link to it, or the link is being set up. -/
theorem c38_none_waits_for_link {s : Sys} (hr : Reach s) {q : Req} (hq : q ∈ s.pending) {a : Addr} (ha : HomeAt s q.gsup.imsi a)
    (hz : a.nonzero = true) {r : Remote} (hl : s.remote? a = some r) : r.up = false :=
  (reach_linking hr q hq a ((homeAt_iff (c37_one_entry hr) _ _).1 ha) hz r hl).1

/-! ## Examples -/

/-- A test for `NoneConcern`. -/
def concernsB (s : Sys) (B : Bytes) : Ev → Bool
  | .rx _ (some m) _ => m.imsi == B
  | .remoteRx _ m _ => m.imsi == B
  | .lookup i _ _ => i == B
  | .kill | .connect | .close _ | .remoteDown _ => false
  | .luTimeout nr => s.lus.any fun lu => lu.req.nr == nr && lu.subscr.imsi == B
  | .remoteUp a => s.proxy.any fun x => x.data.imsi == B && x.data.addr == a
  | .db (.create i _ _) _ => i == B
  | .db (.delete id) _ => s.db.subs.any fun r => r.imsi == B && r.id == id
  | _ => true

theorem concernsB_spec {s : Sys} {B : Bytes} {ev : Ev} (h : concernsB s B ev = false) : ¬ Concerns s B ev := by
  cases ev with
  | rx c m e => cases m with
    | none => exact fun h => h
    | some m => simpa [concernsB, Concerns] using h
  | db op sc =>
    cases op with
    | create => simpa [concernsB, Concerns, Op.hits] using h
    | delete => simpa [concernsB, Concerns, Op.hits] using h
    | _ => simp [concernsB] at h
  | _ => first | (simpa [concernsB, Concerns] using h) | exact fun h => h

def noneConcernB (B : Bytes) : Sys → List (Cfg × Ev) → Bool
  | _, [] => true
  | s, x :: l => !concernsB s B x.2 && (match x.2 with | .rx _ _ e => e.connectOk | .lookup _ _ e => e.connectOk | _ => true)
      && noneConcernB B (step x.1 s x.2) l

theorem noneConcernB_spec {B : Bytes} {l : List (Cfg × Ev)} {s : Sys} (h : noneConcernB B s l = true) : NoneConcern B s l := by
  induction l generalizing s with
  | nil => trivial
  | cons x l ih =>
    unfold noneConcernB at h
    rw [Bool.and_eq_true, Bool.and_eq_true] at h
    refine ⟨concernsB_spec (by simpa using h.1.1), ?_, ih h.2⟩
    obtain ⟨c, ev⟩ := x
    cases ev <;> first | exact h.1.2 | trivial

/-- Two requests for `imsi9` wait.  Meanwhile: the home HLR of `imsi8` is found, at the same address as some other one, and
the link comes up; `imsi1` updates the location and is deleted; a node disconnects. -/
def exOthers : List (Cfg × Ev) :=
  [(exCfg, .lookup imsi8 (some (hlr9, {})) dgsmEnv), (exCfg, .remoteUp hlr9), (exCfg, .rx 1 (some ulMsg) {}), (exCfg, .rx 1 (some ackMsg) {}),
   (exCfg, .rx 2 (some purgeMsg) {}), (exCfg, .db (.delete 1) []), (exCfg, .lookup imsi8 none dgsmEnv), (exCfg, .close 2)]

/-- The hypotheses of `c78_left_alone_partial` hold, there is something to be disturbed, and something happens. -/
example (s : Sys) (hs : s = runWith exCfg (init {}) (exWait ++ [Ev.db (.create imsi9 true true) []])) :
    Reach s ∧ Unique s.db ∧ IdentitiesOk s.db ∧ NoneConcern imsi9 s exOthers
    ∧ (dataOf imsi9 s.db).rows.length = 1 ∧ (stateOf imsi9 s).pending.length = 2 ∧ (stateOf imsi9 s).proxy.length = 1
    ∧ ((run s exOthers).log.take ((run s exOthers).log.length - s.log.length)).filterMap Out.about ≠ []
    ∧ (run s exOthers).db ≠ s.db := by
  refine ⟨⟨{}, (exWait ++ [Ev.db (.create imsi9 true true) []]).map (fun x => (exCfg, x)), by rw [hs]; rfl⟩, ?_, ?_, noneConcernB_spec ?_, ?_, ?_, ?_, ?_, ?_⟩
  · rw [hs]; constructor <;> decide +kernel
  · rw [hs]; unfold IdentitiesOk; intro r hr
    have h : ∀ r ∈ (runWith exCfg (init {}) (exWait ++ [Ev.db (.create imsi9 true true) []])).db.subs,
      isNDigits 6 15 r.imsi = true ∧ (∀ m ∈ r.msisdn, isNDigits 1 15 m = true) ∧ (∀ m ∈ r.imei, isNDigits 14 14 m = true) := by decide +kernel
    obtain ⟨h1, h2, h3⟩ := h r hr
    exact ⟨isNDigits_spec.1 h1, fun m hm => isNDigits_spec.1 (h2 m hm), fun m hm => isNDigits_spec.1 (h3 m hm)⟩
  all_goals (rw [hs]; decide +kernel)

/-- C78, witness: if the attempt to set up a link fails at once, on behalf of a request for one subscriber, then the waiting
requests of all subscribers with the same home HLR are refused. -/
theorem c78_client_violated : ∃ (evs : List Ev) (A B : Bytes) (res : Option (Addr × Addr)) (e : Env),
    let s := runWith exCfg (init {}) evs
    A ≠ B ∧ s.ub = false ∧ (stateOf B s).pending.length = 2 ∧ (stateOf B (step exCfg s (.lookup A res e))).pending = []
    ∧ ((step exCfg s (.lookup A res e)).log.take 6).filterMap Out.about = [B, B, A] :=
  ⟨exWait ++ [.lookup imsi9 (some (hlr9, {})) dgsmEnv, .remoteDown hlr9], imsi8, imsi9, some (hlr9, {}), { dgsmEnv with connectOk := false }, by decide +kernel⟩

end Verif.Sys.Props

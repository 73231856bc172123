import Verif.Net.Lemmas
/-!
# The invariant of the network
-/
namespace Verif.Net
open Verif Verif.Db Verif.Sys Verif.Mslookup Verif.Mslookup.Mdns Verif.Mslookup.Mdns.Spec Verif.Net.Spec
open Verif.Mslookup.Client (Client Obs rxResult timeoutCb sendResult setTimer)

/-! ## Queries and answers are told apart -/

theorem header_qr {id n : Nat} (b : Bool) (rest : Bytes) (hid : id < 65536) (hn : n < 65536) :
    (headerDecode (headerEncode { id := id, qr := b, qdcount := if b then 0 else n, ancount := if b then n else 0 } ++ rest)).qr = b := by
  cases b
  · rw [header_roundtrip _ _ hid (by simpa using hn) (by show (0 : Nat) < 65536; decide)]
  · rw [header_roundtrip _ _ hid (by show (0 : Nat) < 65536; decide) (by simpa using hn)]

theorem query_packet {id : Nat} {q : Query} {sfx p : Bytes} (hid : id < 65536) (h : queryEncode id q sfx = .ok p) :
    p.length ≤ 1024 ∧ resultDecode p sfx = .error := by
  unfold queryEncode at h
  split at h
  · cases h
  unfold requestEncode msgb at h
  split at h
  · cases h
  · rename_i hl
    cases h
    refine ⟨by omega, ?_⟩
    unfold resultDecode answerDecode
    have := header_qr (n := 1) false (questionEncode ‹Bytes› 255 1) hid (by decide)
    rw [if_pos (.inr (by
      have e : (headerDecode (headerEncode { id := id, qr := false, qdcount := 1 } ++ questionEncode ‹Bytes› 255 1)).qr = false := this
      rw [e]; rfl))]
    rfl

theorem answer_packet {id : Nat} {q : Query} {r : Result} {sfx p : Bytes} (hid : id < 65536) (h : resultEncode id q r sfx = .ok p) :
    p.length ≤ 1024 ∧ queryDecode p sfx = .error := by
  unfold resultEncode at h
  split at h
  · cases h
  split at h
  · cases h
  obtain ⟨r4, e4, h⟩ := bind_eq_ok.1 h
  obtain ⟨r6, e6, h⟩ := bind_eq_ok.1 h
  have h4 : ∀ v a l, addrRecords v a = .ok l → l.length ≤ 2 := by
    intro v a l e
    unfold addrRecords at e
    split at e
    · cases e; exact Nat.zero_le _
    split at e
    · cases e
    split at e
    · cases e
    · cases e; exact Nat.le_refl _
  have l4 := h4 _ _ _ e4
  have l6 := h4 _ _ _ e6
  generalize hl : (‹Record› :: (r4 ++ r6)) = l at h
  have hlen : l.length < 65536 := by
    rw [← hl, List.length_cons, List.length_append]; omega
  unfold answerEncode msgb at h
  split at h
  · cases h
  · rename_i hl
    cases h
    refine ⟨by omega, ?_⟩
    unfold queryDecode requestDecode
    have := header_qr (n := l.length) true (l.flatMap (recordEncode ‹Bytes›)) hid hlen
    rw [if_pos (.inr this)]
    rfl

/-! ## The invariant -/

theorem said_mono {z : Zone} {sfx : Bytes} {s : Start} {evs : List Ev} {j : Nat} {q : Query} {r : Result} (h : Said z sfx s evs j q r) (l : List Ev) :
    Said z sfx s (evs ++ l) j q r := by
  obtain ⟨pre, e, post, now, rfl, h⟩ := h
  exact ⟨pre, e, post ++ l, now, by simp, h⟩

theorem asked_mono {z : Zone} {sfx : Bytes} {s : Start} {evs : List Ev} {i u : Nat} {q : Query} (h : Asked z sfx s evs i u q) (l : List Ev) :
    Asked z sfx s (evs ++ l) i u q := by
  obtain ⟨pre, mn, to, post, rfl, h⟩ := h
  exact ⟨pre, mn, to, post ++ l, by simp, h⟩

/-- A packet that is a query for something that can be sent. -/
def IsQuery (sfx p : Bytes) : Prop := ∃ id q, id < 65536 ∧ Sendable q sfx ∧ queryEncode id q sfx = .ok p

/-- A packet that carries what a site said. -/
def IsAnswer (z : Zone) (sfx : Bytes) (s : Start) (evs : List Ev) (p : Bytes) : Prop :=
  ∃ id j q r, id < 65536 ∧ Sendable q sfx ∧ Answer r ∧ r.rc = .result ∧ r.last = false ∧ Said z sfx s evs j q r
    ∧ resultEncode id q r sfx = .ok p

/-- One lookup client. -/
structure LookOk (z : Zone) (sfx : Bytes) (s : Start) (evs : List Ev) (i : Nat) (l : Look) : Prop where
  client : ∃ cevs, l.client = Client.run {} 0 cevs
  sync : Sync l
  suffix : l.mth.suffix = sfx
  next : l.mth.next < 65536
  reqs : ∀ x ∈ l.client.reqs, Asked z sfx s evs i x.uid x.query ∧ Sendable x.query sfx
  rx : ∀ u r, (u, Obs.rx r) ∈ l.client.log → ∃ q j, Asked z sfx s evs i u q ∧ Said z sfx s evs j q r

theorem LookOk.mono {z : Zone} {sfx : Bytes} {s : Start} {evs : List Ev} {i : Nat} {l : Look} (h : LookOk z sfx s evs i l) (l' : List Ev) :
    LookOk z sfx s (evs ++ l') i l where
  client := h.client
  sync := h.sync
  suffix := h.suffix
  next := h.next
  reqs x hx := ⟨asked_mono (h.reqs x hx).1 l', (h.reqs x hx).2⟩
  rx u r hr := by
    obtain ⟨q, j, a, b⟩ := h.rx u r hr
    exact ⟨q, j, asked_mono a l', said_mono b l'⟩

structure Inv (z : Zone) (sfx : Bytes) (s : Start) (evs : List Ev) (n : Net) : Prop where
  site : ∀ j, (n.site j).sys = Sys.run (init (s.db j)) (n.site j).hist
  srv : ∀ j, InRange (n.site j).srv.services ∧ AddrOk (n.site j).srv.bind
  look : ∀ i, LookOk z sfx s evs i (n.look i)
  air : ∀ p ∈ n.air, IsQuery sfx p ∨ IsAnswer z sfx s evs p

theorem IsAnswer.mono {z : Zone} {sfx : Bytes} {s : Start} {evs : List Ev} {p : Bytes} (h : IsAnswer z sfx s evs p) (l : List Ev) :
    IsAnswer z sfx s (evs ++ l) p := by
  obtain ⟨id, j, q, r, h1, h2, h3, h4, h5, h6, h7⟩ := h
  exact ⟨id, j, q, r, h1, h2, h3, h4, h5, said_mono h6 l, h7⟩

theorem Inv.mono {z : Zone} {sfx : Bytes} {s : Start} {evs : List Ev} {n : Net} (h : Inv z sfx s evs n) (l : List Ev) :
    Inv z sfx s (evs ++ l) n where
  site := h.site
  srv := h.srv
  look i := (h.look i).mono l
  air p hp := (h.air p hp).imp_right fun h => h.mono l

theorem run_snoc (d : Sys) (l : List (Cfg × Sys.Ev)) (x : Cfg × Sys.Ev) : Sys.run d (l ++ [x]) = Sys.step x.1 (Sys.run d l) x.2 := by
  induction l generalizing d with
  | nil => rfl
  | cons y l ih => exact ih _

theorem Inv.setLook {z : Zone} {sfx : Bytes} {s : Start} {evs : List Ev} {n : Net} (h : Inv z sfx s evs n) {i : Nat} {l : Look}
    (hl : LookOk z sfx s evs i l) : Inv z sfx s evs (n.setLook i l) where
  site := h.site
  srv := h.srv
  look k := by
    show LookOk z sfx s evs k (if k = i then l else n.look k)
    split
    · rename_i e; rw [e]; exact hl
    · exact h.look k
  air := h.air

theorem Inv.send {z : Zone} {sfx : Bytes} {s : Start} {evs : List Ev} {n : Net} (h : Inv z sfx s evs n) {o : Out (Option Bytes)}
    (ho : ∀ p, o = .ok (some p) → IsQuery sfx p ∨ IsAnswer z sfx s evs p) : Inv z sfx s evs (n.send o) := by
  unfold Net.send
  split
  · exact ⟨h.site, h.srv, h.look, h.air⟩
  · exact h
  · exact h
  · rename_i p
    refine ⟨h.site, h.srv, h.look, fun p' hp => ?_⟩
    rcases List.mem_cons.1 hp with rfl | hp
    · exact ho _ rfl
    · exact h.air _ hp

theorem Inv.event {z : Zone} {sfx : Bytes} {s : Start} {evs : List Ev} {n : Net} (h : Inv z sfx s evs n) (j : Nat) (ev : Sys.Ev) :
    Inv z sfx s evs (n.setSite j ((n.site j).event ev)) where
  site k := by
    show (if k = j then _ else n.site k).sys = Sys.run _ (if k = j then _ else n.site k).hist
    split
    · rename_i e
      rw [e]
      show Sys.step _ _ _ = Sys.run _ (_ ++ [_])
      rw [run_snoc, ← h.site j]
    · exact h.site k
  srv k := by
    show InRange (if k = j then _ else n.site k).srv.services ∧ AddrOk (if k = j then _ else n.site k).srv.bind
    split
    · exact h.srv j
    · exact h.srv k
  look := h.look
  air := h.air

theorem query_ext {a b : Query} (h : a.service = b.service) (h' : a.id = b.id) : a = b := by
  cases a; cases b; cases h; cases h'; rfl

/-- What is heard. -/
theorem recv_spec {z : Zone} {sfx : Bytes} {s : Start} {evs : List Ev} {i : Nat} {l : Look} (hl : LookOk z sfx s evs i l) {p : Bytes}
    (hp : IsQuery sfx p ∨ IsAnswer z sfx s evs p) :
    l.mth.recv p ≠ .crash
    ∧ ∀ h r, l.mth.recv p = .ok (some (h, r)) → ∃ x ∈ l.client.reqs, x.handle = h ∧ ∃ j, Said z sfx s evs j x.query r := by
  rcases hp with ⟨id, q, hid, hq, he⟩ | ⟨id, j, q, r, hid, hq, ha, hrc, hlast, hs, he⟩
  · obtain ⟨h1, h2⟩ := query_packet hid he
    unfold Method.recv
    rw [hl.suffix, List.take_of_length_le h1, h2]
    exact ⟨fun e => (by cases e), fun h r e => (by cases e)⟩
  · have h1 := (answer_packet hid he).1
    have h2 := Props.c46_result_partial hid hq ha he
    unfold Method.recv
    rw [hl.suffix, List.take_of_length_le h1, h2]
    dsimp only
    refine ⟨fun e => (by cases e), fun h r' e => ?_⟩
    obtain ⟨h', hh, e⟩ := Option.map_eq_some_iff.1 (Out.ok.inj e)
    cases e
    unfold Method.handleFor at hh
    obtain ⟨m, hm, rfl⟩ := Option.map_eq_some_iff.1 hh
    have hmem := List.mem_of_find?_eq_some hm
    have hc := List.find?_some hm
    simp only [Bool.and_eq_true, decide_eq_true_eq] at hc
    obtain ⟨x, hx, e1, e2⟩ := (hl.sync.mem _ _).1 ⟨m, hmem, rfl, rfl⟩
    have hid := (Props.c45_cmp _ _ (by rw [← e2]; exact valid_text (hl.reqs x hx).2.valid) (valid_text hq.valid)).1 hc.2
    have hq' : x.query = q := by
      rw [e2]
      exact query_ext hc.1 hid
    refine ⟨x, hx, e1, j, ?_⟩
    rw [hq']
    obtain ⟨a, b', c', d', e'⟩ := r
    cases hrc
    cases hlast
    exact hs

theorem inv_max {c : Client} (h : ∃ cevs, c = Client.run {} 0 cevs) (hm : c.uids ≤ Client.MAX) : Client.Small c := by
  obtain ⟨cevs, rfl⟩ := h
  exact Client.run_small {} 0 cevs hm

theorem LookOk.with {z : Zone} {sfx : Bytes} {s : Start} {evs : List Ev} {i : Nat} {l : Look} (hl : LookOk z sfx s evs i l) {c : Client}
    (hm : l.client.uids ≤ Client.MAX) {rx : Option (Nat × Result)} (hc : Moves l.client c rx) (he : ∃ e, c = Client.step {} 0 l.client e)
    (hrx : ∀ u r, rx = some (u, r) → ∃ q j, Asked z sfx s evs i u q ∧ Said z sfx s evs j q r) : LookOk z sfx s evs i (l.with c) where
  client := by
    obtain ⟨cevs, e⟩ := hl.client
    obtain ⟨ev, e'⟩ := he
    refine ⟨cevs ++ [ev], ?_⟩
    show c = _
    unfold Client.run
    rw [List.foldl_append, e', e]
    rfl
  sync := with_sync hl.sync (inv_max hl.client hm) hc.sub
  suffix := (forget_suffix _ _ _).1.trans hl.suffix
  next := by rw [show (l.with c).mth.next = l.mth.next from (forget_suffix _ _ _).2]; exact hl.next
  reqs x hx := by
    obtain ⟨y, hy, e1, e2, e3⟩ := hc.sub x hx
    rw [← e1, ← e3]
    exact hl.reqs y hy
  rx u r hr := by
    obtain ⟨new, e, hn⟩ := hc.log
    have hr : (u, Obs.rx r) ∈ new ++ l.client.log := e ▸ hr
    rcases List.mem_append.1 hr with hr | hr
    · exact hrx u r (hn u r hr)
    · exact hl.rx u r hr

theorem forget_none {a b : Client} (m : Method) (h : ∀ x ∈ a.reqs, x ∈ b.reqs) : forget a b m = m := by
  unfold forget
  have : (a.reqs.filter fun r => !(b.reqs.any fun x => x.handle == r.handle)) = [] := by
    rw [List.filter_eq_nil_iff]
    intro r hr e
    have : (b.reqs.any fun x => x.handle == r.handle) = true := List.any_eq_true.2 ⟨r, h r hr, beq_self_eq_true _⟩
    rw [this] at e
    cases e
  rw [this]
  rfl

theorem look_request {z : Zone} {sfx : Bytes} {s : Start} {evs : List Ev} {i : Nat} {l : Look} (hl : LookOk z sfx s evs i l)
    (hm : l.client.uids ≤ Client.MAX) {q : Query} {mn to : Nat}
    (hq : serviceValid q.service = true → idValid q.id = true → Asked z sfx s evs i l.client.uids q ∧ Sendable q sfx) (hsfx : sfx.length ≤ 80) :
    LookOk z sfx s evs i (l.request q mn to).2
    ∧ ((serviceValid q.service && idValid q.id) = false ∧ l.request q mn to = (.ok none, l.with l.client)
      ∨ (serviceValid q.service && idValid q.id) = true ∧ ∃ p id, (l.request q mn to).1 = .ok (some p) ∧ id < 65536 ∧ Sendable q sfx
        ∧ queryEncode id q sfx = .ok p ∧ ∃ x ∈ (l.request q mn to).2.client.reqs, x.uid = l.client.uids ∧ x.query = q) := by
  have hi := inv_max hl.client hm
  have hcl : ∃ cevs, (Client.request note (fun _ => []) l.client q mn to).2 = Client.run {} 0 cevs := by
    obtain ⟨cevs, e⟩ := hl.client
    refine ⟨cevs ++ [.act (.request q mn to)], ?_⟩
    unfold Client.run
    rw [List.foldl_append, e]
    rfl
  unfold Look.request
  dsimp only
  rcases request_eq hi q mn to with ⟨hv, e⟩ | ⟨hv, e1, ⟨x, x1, x2, x3, e2⟩, e3, a, b, d, e4⟩
  · rw [e] at hcl ⊢
    rw [if_pos rfl]
    exact ⟨hl.with hm (Moves.refl _ none) ⟨.act (.request q mn to), (congrArg Prod.snd e).symm⟩ (fun _ _ h => by cases h), .inl ⟨hv, rfl⟩⟩
  · rw [if_neg (by rw [e1]; omega)]
    generalize Client.request note (fun _ => []) l.client q mn to = rq at *
    obtain ⟨h, c⟩ := rq
    dsimp only at *
    subst e1
    rw [Bool.and_eq_true] at hv
    obtain ⟨hask, hsend⟩ := hq hv.1 hv.2
    have hf : (l.with c).mth = l.mth := forget_none l.mth (fun y hy => by rw [e2]; exact List.mem_append_left _ hy)
    rw [hf]
    obtain ⟨p, hp⟩ := (Props.c46_fits l.mth.next hsend hsfx).1
    have hfst : (l.mth.request q (l.client.uids + 1)).1 = .ok p := by
      show queryEncode _ _ l.mth.suffix = _
      rw [hl.suffix]; exact hp
    rw [hfst]
    refine ⟨?_, .inr ⟨by rw [hv.1, hv.2]; rfl, p, l.mth.next, rfl, hl.next, hsend, hp, x, ?_, x1, x3⟩⟩
    · constructor
      · exact hcl
      · constructor
        · intro h' q'
          show (∃ m ∈ (_ :: l.mth.reqs), _) ↔ ∃ y ∈ c.reqs, _
          rw [e2]
          constructor
          · rintro ⟨m, hm', rfl, rfl⟩
            rcases List.mem_cons.1 hm' with rfl | hm'
            · exact ⟨x, List.mem_append_right _ List.mem_cons_self, x2, x3⟩
            · obtain ⟨y, hy, f⟩ := (hl.sync.mem _ _).1 ⟨m, hm', rfl, rfl⟩
              exact ⟨y, List.mem_append_left _ hy, f⟩
          · rintro ⟨y, hy, rfl, rfl⟩
            rcases List.mem_append.1 hy with hy | hy
            · obtain ⟨m, hm', f⟩ := (hl.sync.mem _ _).2 ⟨y, hy, rfl, rfl⟩
              exact ⟨m, List.mem_cons_of_mem _ hm', f⟩
            · rw [List.mem_singleton.1 hy]
              exact ⟨_, List.mem_cons_self, x2.symm, x3.symm⟩
        · show ((l.client.uids + 1) :: l.mth.reqs.map (·.handle)).Nodup
          rw [List.nodup_cons]
          refine ⟨fun hmem => ?_, hl.sync.nodup⟩
          obtain ⟨m, hm', e⟩ := List.mem_map.1 hmem
          obtain ⟨y, hy, f1, f2⟩ := (hl.sync.mem _ _).1 ⟨m, hm', rfl, rfl⟩
          have := hi.handle1 hy
          omega
      · exact hl.suffix
      · show (l.mth.next + 1) % 65536 < 65536
        exact Nat.mod_lt _ (by decide)
      · intro y hy
        have hy : y ∈ l.client.reqs ++ [x] := e2 ▸ hy
        rcases List.mem_append.1 hy with hy | hy
        · exact hl.reqs y hy
        · rw [List.mem_singleton.1 hy, x1, x3]
          exact ⟨hask, hsend⟩
      · intro u r hr
        have hr : (u, Obs.rx r) ∈ (l.client.uids, Obs.issued a b d) :: l.client.log := e4 ▸ hr
        rcases List.mem_cons.1 hr with hr | hr
        · cases hr
        · exact hl.rx u r hr
    · show x ∈ c.reqs
      rw [e2]
      exact List.mem_append_right _ List.mem_cons_self

theorem look_uids (l : Look) (q : Query) (mn to : Nat) : l.client.uids ≤ (l.request q mn to).2.client.uids := by
  have := (Client.request_uids (Client.react_good (b := 0) {} 0) (fun _ => []) l.client q mn to).1.1
  unfold Look.request
  dsimp only
  split
  · exact this
  · exact this

theorem hear_uids (l : Look) (p : Bytes) : (l.hear p).2.client.uids = l.client.uids := by
  unfold Look.hear
  split
  · rfl
  · rfl
  · rfl
  · exact (rx_moves _ _ _).uids

/-- The number of lookups only grows. -/
theorem step_uids (z : Zone) (sfx : Bytes) (n : Net) (e : Ev) (i : Nat) :
    (n.look i).client.uids ≤ ((step z sfx n e).look i).client.uids := by
  have hset : ∀ k (l : Look), (n.look k).client.uids ≤ l.client.uids → (n.look i).client.uids ≤ ((n.setLook k l).look i).client.uids := by
    intro k l h
    show _ ≤ (if i = k then l else n.look i).client.uids
    split
    · rename_i e; rw [e]; exact h
    · exact Nat.le_refl _
  have hsend : ∀ (n' : Net) o, ((n'.send o).look i) = n'.look i := by
    intro n' o
    unfold Net.send
    split <;> rfl
  cases e with
  | hlr j ev => exact Nat.le_refl _
  | conf j cfg srv => exact Nat.le_refl _
  | request k q mn to =>
    show _ ≤ (((n.setLook k _).send _).look i).client.uids
    rw [hsend]
    exact hset k _ (look_uids _ _ _ _)
  | cancel k h => exact hset k _ (Nat.le_of_eq (cancel_moves _ _).uids.symm)
  | timeout k u => exact hset k _ (Nat.le_of_eq (timeout_moves _ _).uids.symm)
  | serve j p now sc =>
    unfold step
    dsimp only
    split
    · split
      · exact Nat.le_refl _
      · rw [hsend]; exact Nat.le_refl _
    · exact Nat.le_refl _
  | hear k p =>
    unfold step
    dsimp only
    split
    · have := hset k ((n.look k).hear p).2 (Nat.le_of_eq (hear_uids _ _).symm)
      split
      · exact this
      · exact this
    · exact Nat.le_refl _
  | inject p => exact Nat.le_refl _

theorem run_cons_snoc (z : Zone) (sfx : Bytes) (s : Start) (evs : List Ev) (e : Ev) :
    run z sfx s (evs ++ [e]) = step z sfx (run z sfx s evs) e := by
  unfold run
  rw [List.foldl_append]
  rfl

theorem Few.before {z : Zone} {sfx : Bytes} {s : Start} {evs : List Ev} {l : List Ev} (h : Few (run z sfx s (evs ++ l))) : Few (run z sfx s evs) := by
  induction l generalizing evs with
  | nil => rw [List.append_nil] at h; exact h
  | cons e l ih =>
    have : Few (run z sfx s (evs ++ [e])) := ih (by simpa using h)
    intro i
    rw [run_cons_snoc] at this
    exact Nat.le_trans (step_uids z sfx _ e i) (this i)

theorem usable_before {sfx : Bytes} {s : Start} {evs l : List Ev} (h : Usable sfx s (evs ++ l)) : Usable sfx s evs where
  query i q mn to hm := h.query i q mn to (List.mem_append_left _ hm)
  suffix := h.suffix
  srv := h.srv
  conf j cfg srv hm := h.conf j cfg srv (List.mem_append_left _ hm)
  packet := h.packet

theorem own_before {evs l : List Ev} (h : Own (evs ++ l)) : Own evs := fun p hp => h p (List.mem_append_left _ hp)

/-- The server only reads the database. -/
theorem serve_db (z : Zone) (now : Int) (c : Srv) (p : List ProxyEntry) (sfx d : Bytes) (db : Db) (sc : Script) :
    (exec (serverPacket z now c p sfx d) db sc).2 = db := by
  have hR : Db.Pre (fun a b : Db => b = a) := ⟨fun _ => rfl, fun _ _ _ h1 h2 => Eq.trans h2 h1⟩
  have hrow : ∀ i, Sat (fun a b : Db => b = a) (rowFor i) := by
    intro i
    cases i with
    | none => exact Sat.pure hR _
    | imsi v => exact Sat.bind hR (dbSel_sat hR _) (fun _ => Sat.pure hR _)
    | msisdn v => exact Sat.bind hR (dbSel_sat hR _) (fun _ => Sat.pure hR _)
  have hgsup : ∀ i, Sat (fun a b : Db => b = a) (rxHlrGsup c i) := by
    intro i
    cases i with
    | none => exact Sat.pure hR _
    | imsi v => exact Sat.bind hR (existsByImsi_sat hR _) (fun _ => Sat.pure hR _)
    | msisdn v => exact Sat.bind hR (existsByMsisdn_sat hR _) (fun _ => Sat.pure hR _)
  have hall : Sat (fun a b : Db => b = a) (serverPacket z now c p sfx d) := by
    unfold serverPacket
    split
    · exact Sat.pure hR _
    · exact Sat.pure hR _
    · refine Sat.bind hR ?_ (fun _ => Sat.pure hR _)
      unfold serverRx
      split
      · exact Sat.bind hR (hgsup _) (fun _ => Sat.pure hR _)
      · exact Sat.bind hR (hrow _) (fun _ => Sat.pure hR _)
  exact hall { db := db, script := sc }

/-- What the server makes of a packet. -/
theorem serve_spec {z : Zone} {sfx : Bytes} {s : Start} {evs : List Ev} {n : Net} (hn : n = run z sfx s evs) (hI : Inv z sfx s evs n)
    (hsfx : sfx.length ≤ 80) {j : Nat} {p : Bytes} {now : Int} {sc : Script} (hp : p ∈ n.air) {o : Out (Option Bytes)}
    (h : (exec (serverPacket z now (n.site j).srv (n.site j).sys.proxy sfx p) (n.site j).sys.db sc).1 = some o) :
    (o = .crash → ∃ q, (exec (serverRx z now (n.site j).srv (n.site j).sys.proxy q) (n.site j).sys.db sc).1 = some none)
    ∧ ∀ a, o = .ok (some a) → IsAnswer z sfx s (evs ++ [.serve j p now sc]) a := by
  have haw : queryDecode p sfx = .error → p.length ≤ 1024 → o = .ok none := by
    intro e hl
    unfold serverPacket at h
    rw [List.take_of_length_le hl, e] at h
    exact (Option.some.inj h).symm
  rcases hI.air p hp with ⟨id, q, hid, hq, he⟩ | ⟨id, k, q, r, hid, -, -, -, -, -, he⟩
  · obtain ⟨h1, -⟩ := query_packet hid he
    have h2 := Props.c46_query_partial hid hq he
    unfold serverPacket at h
    rw [List.take_of_length_le h1, h2] at h
    dsimp only at h
    rw [Props.exec_map] at h
    obtain ⟨x, hx, e⟩ := Option.map_eq_some_iff.1 h
    cases x with
    | none =>
      refine ⟨fun _ => ⟨q, hx⟩, fun a ha => ?_⟩
      rw [ha] at e; cases e
    | some r =>
      unfold answerPacket at e
      dsimp only at e
      split at e
      · rw [← e]
        exact ⟨fun h => (by cases h), fun a h => (by cases h)⟩
      · rename_i hrc
        have hrc : r.rc = .result := by simpa using hrc
        obtain ⟨ha, hlast⟩ := Props.serverRx_answer (hI.srv j).1 (hI.srv j).2 hx hrc
        obtain ⟨ans, hans⟩ := (Props.c46_fits id hq hsfx).2 r ha
        rw [hans] at e
        rw [← e]
        refine ⟨fun h => (by cases h), fun a h => ?_⟩
        cases h
        refine ⟨id, j, q, r, hid, hq, ha, hrc, hlast, ⟨evs, _, [], now, rfl, p, sc, rfl, ?_, ⟨id, ?_⟩, ?_, hrc⟩, hans⟩
        · rw [← hn]; exact hp
        · rw [List.take_of_length_le h1]; exact h2
        · rw [← hn]; exact hx
  · obtain ⟨h1, h2⟩ := answer_packet hid he
    rw [haw h2 h1]
    exact ⟨fun h => (by cases h), fun a h => (by cases h)⟩

theorem snoc_induction {α : Type} {P : List α → Prop} (nil : P []) (snoc : ∀ l x, P l → P (l ++ [x])) (l : List α) : P l := by
  have : ∀ l : List α, P l.reverse := by
    intro l
    induction l with
    | nil => exact nil
    | cons x l ih => rw [List.reverse_cons]; exact snoc _ x ih
  have h := this l.reverse
  rw [List.reverse_reverse] at h
  exact h

/-- The invariant holds always. -/
theorem run_inv {z : Zone} {sfx : Bytes} {s : Start} {evs : List Ev} (hu : Usable sfx s evs) (ho : Own evs)
    (hf : Few (run z sfx s evs)) : Inv z sfx s evs (run z sfx s evs) := by
  induction evs using snoc_induction with
  | nil =>
    refine ⟨fun j => rfl, hu.srv, fun i => ⟨⟨[], rfl⟩, ⟨fun h q => ?_, List.nodup_nil⟩, rfl, hu.packet i, fun x hx => (by cases hx), fun u r hr => (by cases hr)⟩,
      fun p hp => (by cases hp)⟩
    constructor
    · rintro ⟨m, hm, -⟩; cases hm
    · rintro ⟨m, hm, -⟩; cases hm
  | snoc evs e ih =>
    have hf0 := Few.before hf
    have hI := ih (usable_before hu) (own_before ho) hf0
    have hI' := hI.mono [e]
    rw [run_cons_snoc]
    generalize hn : run z sfx s evs = n at *
    cases e with
    | hlr j ev => exact hI'.event j ev
    | conf j cfg srv =>
      have hc := hu.conf j cfg srv (List.mem_append_right _ List.mem_cons_self)
      refine ⟨fun k => ?_, fun k => ?_, hI'.look, hI'.air⟩
      · show (if k = j then _ else n.site k).sys = Sys.run _ (if k = j then _ else n.site k).hist
        split
        · rename_i e; rw [e]; exact hI.site j
        · exact hI.site k
      · show InRange (if k = j then _ else n.site k).srv.services ∧ AddrOk (if k = j then _ else n.site k).srv.bind
        split
        · exact hc
        · exact hI.srv k
    | request i q mn to =>
      obtain ⟨h1, h2⟩ := look_request (hI'.look i) (hf0 i) (q := q) (mn := mn) (to := to) (fun h1 h2 =>
        ⟨⟨evs, mn, to, [], rfl, by rw [hn], h1, h2⟩, hu.query i q mn to (List.mem_append_right _ List.mem_cons_self) h1 h2⟩) hu.suffix
      refine (hI'.setLook h1).send fun p hp => ?_
      rcases h2 with ⟨-, e⟩ | ⟨-, p', id, e, hid, hs, he, -⟩
      · rw [e] at hp; cases hp
      · rw [e] at hp; cases hp
        exact .inl ⟨id, q, hid, hs, he⟩
    | cancel i h =>
      exact hI'.setLook ((hI'.look i).with (hf0 i) (cancel_moves _ h) ⟨.act (.cancel h), rfl⟩ (fun _ _ h => by cases h))
    | timeout i u =>
      exact hI'.setLook ((hI'.look i).with (hf0 i) (timeout_moves _ u) ⟨.timeout u, rfl⟩ (fun _ _ h => by cases h))
    | serve j p now sc =>
      unfold step
      dsimp only
      split
      · rename_i hp
        split
        · exact hI'.event j .kill
        · rename_i o h
          exact hI'.send fun a ha => .inr ((serve_spec hn.symm hI hu.suffix hp h).2 a ha)
      · exact hI'
    | hear i p =>
      unfold step
      dsimp only
      split
      · rename_i hp
        have hl : LookOk z sfx s (evs ++ [.hear i p]) i ((n.look i).hear p).2 := by
          have hr := (recv_spec (hI'.look i) (hI'.air p hp)).2
          unfold Look.hear
          split
          · exact hI'.look i
          · exact hI'.look i
          · exact hI'.look i
          · rename_i h r e
            obtain ⟨x, hx, e1, j, hs⟩ := hr h r e
            refine (hI'.look i).with (hf0 i) (rx_moves _ h r) ⟨.rx h r, rfl⟩ fun u r' e' => ?_
            obtain ⟨y, hy, e'⟩ := Option.map_eq_some_iff.1 e'
            cases e'
            obtain ⟨hy, e2⟩ := getReq_mem hy
            have := handle_uniq (inv_max (hI.look i).client (hf0 i)) hx hy (e1.trans e2.symm)
            subst this
            exact ⟨x.query, j, ((hI'.look i).reqs x hx).1, hs⟩
        have := hI'.setLook hl
        split
        · exact ⟨this.site, this.srv, this.look, this.air⟩
        · exact this
      · exact hI'
    | inject p => exact absurd (List.mem_append_right _ List.mem_cons_self) (ho p)

end Verif.Net

import Verif.TestClient.Inv2
/-!
# C79: the report of the load test is right
-/
namespace Verif.TestClient
open Verif Verif.Gsup

attribute [local irreducible] imsiOf

/-- The answer to a request is a result or an error. -/
theorem ans_types {req i : Nat} {e : Ev} {t : Nat} (h : ans req i e = some t) : t = req + 1 ∨ t = req + 2 := by
  unfold ans at h
  split at h
  · split at h
    · rename_i h1; cases h; exact h1.2
    · cases h
  · cases h

theorem saiAnswer_types {l : List Ev} {i t : Nat} (h : saiAnswer l i = some t) : t = SEND_AUTH_INFO + 1 ∨ t = SEND_AUTH_INFO + 2 := by
  obtain ⟨e, _, he⟩ := List.exists_of_findSome?_eq_some h
  exact ans_types he

theorem luAnswer_types {l : List Ev} {i t : Nat} (h : luAnswer l i = some t) : t = UPDATE_LOCATION + 1 ∨ t = UPDATE_LOCATION + 2 := by
  obtain ⟨e, _, he⟩ := List.exists_of_findSome?_eq_some h
  exact ans_types he

theorem howMany_two {l : List Ev} {f : Nat → Option Nat} {a b : Nat} (hab : a ≠ b) (h : ∀ i t, f i = some t → t = a ∨ t = b) :
    howMany l (fun i => f i = some b) + howMany l (fun i => f i = some a) = howMany l (fun i => f i ≠ none) := by
  unfold howMany
  induction List.range (asked l) with
  | nil => rfl
  | cons x r ih =>
    simp only [List.countP_cons]
    cases hf : f x with
    | none => simp; simpa using ih
    | some t =>
      rcases h x t hf with rfl | rfl
      · simp [hab]; simp at ih; omega
      · simp [hab.symm]; simp at ih; omega

theorem howMany_le (l : List Ev) (p : Nat → Bool) : howMany l p ≤ 10000 := by
  unfold howMany
  exact Nat.le_trans List.countP_le_length (by rw [List.length_range]; exact asked_le' l)

/-- C79: whatever arrives and whenever, the program follows no null pointer. -/
theorem c79_no_null (l : List Ev) : (run l).crashed = false := (run_inv l).ok

/-- C79: at any time what was started is what ended and what is still waiting. -/
theorem c79_adds_up (l : List Ev) (k : Kind) : ((run l).stats k).alloc = ((run l).stats k).released + waiting (run l) k :=
  (run_inv l).adds k

/-- C79: the lines of the report about authentication data and location updates are right: the
number of subscribers asked about, and how many of them had the first answer after the request
being a result, or an error.  Messages nobody asked for, second answers and messages that
cannot be decoded do not count. -/
theorem c79_report (l : List Ev) (k : Kind) (hk : k ≠ .isd) : report (run l) k = expected l k := by
  have hi := run_inv l
  have h1 := howMany_two (l := l) (f := saiAnswer l) (a := SEND_AUTH_INFO + 1) (b := SEND_AUTH_INFO + 2) (by decide) (fun i t h => saiAnswer_types h)
  have h2 := howMany_two (l := l) (f := luAnswer l) (a := UPDATE_LOCATION + 1) (b := UPDATE_LOCATION + 2) (by decide) (fun i t h => luAnswer_types h)
  have hmod : ∀ n, n ≤ 10000 → n % 2 ^ 32 = n := fun n h => Nat.mod_eq_of_lt (Nat.lt_of_le_of_lt h (by decide))
  unfold report
  cases k with
  | sai =>
    simp only [List.map_cons, List.map_nil, expected]
    rw [hi.tout, hi.saiRel, hi.saiAlloc, hi.saiOk, hi.saiErr, h1, hmod _ (asked_le' l), hmod _ (howMany_le ..), hmod _ (howMany_le ..), hmod _ (howMany_le ..)]
  | lu =>
    simp only [List.map_cons, List.map_nil, expected]
    rw [hi.tout, hi.luRel, hi.luAlloc, hi.saiRel, hi.saiOk, hi.saiErr, hi.luOk, hi.luErr, h1, h2, hmod _ (howMany_le ..), hmod _ (howMany_le ..), hmod _ (howMany_le ..), hmod _ (howMany_le ..)]
  | isd => exact absurd rfl hk

/-- C79: the line about subscriber data counts every message with subscriber data (modulo
2^32); when everything can be encoded. -/
theorem c79_report_isd_partial (l : List Ev) (h : ∀ e ∈ l, e.enc = true) : report (run l) .isd = expected l .isd := by
  have hi := run_inv l
  have hs := run_sent l h
  have hw : waiting (run l) .isd = 0 := by
    unfold waiting
    apply List.countP_eq_zero.2
    intro o ho; simpa using hs.idle o ho
  have ha := hi.adds .isd
  rw [hw] at ha
  unfold report
  simp only [List.map_cons, List.map_nil, expected]
  rw [hi.tout, hi.isdErr, ← hs.isdCount, ← hi.isdRel, show ((run l).stats .isd).released = ((run l).stats .isd).alloc by omega]

/-- C79: what is sent, when everything can be encoded: one request for authentication data per
subscriber, in order; one location update for each subscriber whose request was answered, and
for nobody else; one acknowledgement for each message with subscriber data, in order; nothing
else. -/
theorem c79_sent_partial (l : List Ev) (h : ∀ e ∈ l, e.enc = true) :
    sentOf (run l) SEND_AUTH_INFO = (List.range (asked l)).map imsiOf
    ∧ (∀ i, i < asked l → (sentOf (run l) UPDATE_LOCATION).count (imsiOf i) = if saiAnswer l i = none then 0 else 1)
    ∧ (∀ x ∈ sentOf (run l) UPDATE_LOCATION, ∃ i, i < asked l ∧ x = imsiOf i)
    ∧ sentOf (run l) (INSERT_DATA + 2) = isdReqs l
    ∧ ∀ m ∈ (run l).sent, m.1 = SEND_AUTH_INFO ∨ m.1 = UPDATE_LOCATION ∨ m.1 = INSERT_DATA + 2 :=
  have hs := run_sent l h
  ⟨hs.sai, hs.lu, hs.luOurs, hs.isd, hs.types⟩

attribute [local semireducible] imsiOf

/-- A message about the i-th subscriber. -/
def about (typ i : Nat) : Ev := .rx {} (some ⟨typ, imsiOf i, imsiOf_short i⟩)

/-- Two subscribers: one is registered, with its data; the other is refused.  An answer comes
twice, one too early, one for a stranger, and one that cannot be decoded. -/
def sample : List Ev :=
  [.loop {}, about (UPDATE_LOCATION + 2) 0, about (SEND_AUTH_INFO + 2) 0, .rx {} none, about (SEND_AUTH_INFO + 1) 0, .loop {},
    about INSERT_DATA 0, about (SEND_AUTH_INFO + 2) 7, about (UPDATE_LOCATION + 2) 0, about (UPDATE_LOCATION + 1) 0,
    about (SEND_AUTH_INFO + 1) 1, about (UPDATE_LOCATION + 1) 1, .expire 0, .loop {}]

example : imsiOf 7 = b "901790000000007" := by decide +kernel
example : ∀ e ∈ sample, e.enc = true := by decide +kernel
example : report (run sample) .sai = [3, 2, 1, 1, 0] ∧ report (run sample) .lu = [2, 2, 1, 1, 0] ∧ report (run sample) .isd = [1, 1, 1, 0, 0] := by
  decide +kernel
example : expected sample .sai = [3, 2, 1, 1, 0] ∧ expected sample .lu = [2, 2, 1, 1, 0] ∧ expected sample .isd = [1, 1, 1, 0, 0] := by
  decide +kernel
example : (run sample).sent = [(SEND_AUTH_INFO, imsiOf 0), (UPDATE_LOCATION, imsiOf 0), (SEND_AUTH_INFO, imsiOf 1), (INSERT_DATA + 2, imsiOf 0),
    (UPDATE_LOCATION, imsiOf 1), (SEND_AUTH_INFO, imsiOf 2)] := by decide +kernel
example : waiting (run sample) .sai = 1 ∧ saiAnswer sample 1 = some (SEND_AUTH_INFO + 1) ∧ luAnswer sample 1 = some (UPDATE_LOCATION + 1) := by
  decide +kernel

/-- C79, what does not hold: a request that is never answered is never given up.  The timer is
set up (gsup_test_client.c 80) and never started, so the column for it is 0 for ever. -/
theorem c79_timeout_violated : (∀ l k, (report (run l) k)[4]? = some 0)
    ∧ ∀ l, (∀ e ∈ l, ans SEND_AUTH_INFO 0 e = none) → 0 < asked l → 0 < waiting (run l) .sai := by
  constructor
  · intro l k
    show some (((run l).stats k).timeout % 2 ^ 32) = some 0
    rw [(run_inv l).tout]
  · intro l h ha
    have hsub : ∀ (l : List Ev) n, ∀ e ∈ afterAsk n l, e ∈ l := by
      intro l
      induction l with
      | nil => intro n e he; cases n <;> cases he
      | cons a l ih =>
        intro n e he
        cases a <;> cases n <;> rw [afterAsk] at he <;> first | exact List.mem_cons_of_mem _ he | exact List.mem_cons_of_mem _ (ih _ e he)
    have hn : saiAnswer l 0 = none := List.findSome?_eq_none_iff.2 (fun e he => h e (hsub l 0 e he))
    exact List.countP_pos_iff.2 ⟨_, ((run_inv l).sai 0 ha).2 hn, by simp⟩

/-- C79, what does not hold: a subscriber whose authentication data were refused is registered
all the same (gsup_test_client.c 176-178). -/
theorem c79_refused_violated : ∃ l, saiAnswer l 0 = some (SEND_AUTH_INFO + 1) ∧ imsiOf 0 ∈ sentOf (run l) UPDATE_LOCATION :=
  ⟨[.loop {}, about (SEND_AUTH_INFO + 1) 0], by decide +kernel⟩

/-- C79, what does not hold: once an acknowledgement could not be encoded, later subscriber data
of that subscriber are not acknowledged (gsup_test_client.c 153-156: the operation is kept). -/
theorem c79_isd_violated : ∃ l e, e.enc = true ∧ isdOf e = some (imsiOf 0) ∧ (run (l ++ [e])).sent = [] ∧ report (run (l ++ [e])) .isd = [1, 0, 1, 0, 0] :=
  ⟨[.rx { enc := false } (some ⟨INSERT_DATA, imsiOf 0, imsiOf_short 0⟩)], about INSERT_DATA 0, by decide +kernel⟩

end Verif.TestClient

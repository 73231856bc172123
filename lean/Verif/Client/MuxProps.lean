import Verif.Client.Mux
/-!
# The GSUP client multiplexer: C61
-/
namespace Verif.Client.Mux.Props
open Verif Verif.Client Verif.Gsup Verif.Client.Mux

/-- The part of an MSC a message belongs to: the one its Message Class names; without one,
supplementary services operations belong to supplementary services, an incoming short message
and the answers to what the MSC sent about short messages to SMS, and all the rest to
subscriber management. -/
inductive Belongs (m : Msg) : Nat → Prop where
  | named (h : m.cls ≠ 0) : Belongs m m.cls
  | ss (h : m.cls = 0) (k : Nat) (hk : k < 3) (ht : m.typ = PROC_SS + k) : Belongs m USSD
  | mtSms (h : m.cls = 0) (ht : m.typ = MT_FORWARD_SM) : Belongs m SMS
  | smsAnswer (h : m.cls = 0) (t : Nat) (ht : t = MO_FORWARD_SM ∨ t = READY_FOR_SM)
      (hm : m.typ = toError t ∨ m.typ = toResult t) : Belongs m SMS
  | rest (h : m.cls = 0) (h1 : ∀ k, k < 3 → m.typ ≠ PROC_SS + k) (h2 : m.typ ≠ MT_FORWARD_SM)
      (h3 : ∀ t, t = MO_FORWARD_SM ∨ t = READY_FOR_SM → m.typ ≠ toError t ∧ m.typ ≠ toResult t) : Belongs m SUBSCRIBER

theorem classify_iff (m : Msg) (c : Nat) : Belongs m c ↔ classify m = c := by
  constructor
  · rintro h
    cases h with
    | named h => unfold classify; rw [if_pos h]
    | ss h k hk ht =>
      unfold classify
      rw [if_neg (by rw [h]; simp), if_pos (by rw [ht]; simp only [PROC_SS]; omega)]
    | mtSms h ht =>
      unfold classify
      rw [if_neg (by rw [h]; simp), if_neg (by rw [ht]; decide), if_pos (by rw [ht]; decide)]
    | smsAnswer h t ht hm =>
      unfold classify
      rw [if_neg (by rw [h]; simp)]
      rcases ht with rfl | rfl <;> rcases hm with hm | hm <;> rw [hm] <;> decide
    | rest h h1 h2 h3 =>
      unfold classify
      rw [if_neg (by rw [h]; simp), if_neg, if_neg]
      · have a1 := h3 MO_FORWARD_SM (Or.inl rfl)
        have a2 := h3 READY_FOR_SM (Or.inr rfl)
        rintro (h | h | h | h | h)
        · exact a1.1 h
        · exact a1.2 h
        · exact a2.1 h
        · exact a2.2 h
        · exact h2 h
      · rintro (h | h | h)
        · exact h1 0 (by decide) h
        · exact h1 2 (by decide) h
        · exact h1 1 (by decide) h
  · rintro rfl
    by_cases hc : m.cls ≠ 0
    · have : classify m = m.cls := by unfold classify; rw [if_pos hc]
      rw [this]; exact .named hc
    · have hc' : m.cls = 0 := by simpa using hc
      unfold classify
      rw [if_neg hc]
      split
      · rename_i h
        rcases h with h | h | h
        · exact .ss hc' 0 (by decide) h
        · exact .ss hc' 2 (by decide) h
        · exact .ss hc' 1 (by decide) h
      · rename_i hs
        split
        · rename_i h
          rcases h with h | h | h | h | h
          · exact .smsAnswer hc' _ (Or.inl rfl) (Or.inl h)
          · exact .smsAnswer hc' _ (Or.inl rfl) (Or.inr h)
          · exact .smsAnswer hc' _ (Or.inr rfl) (Or.inl h)
          · exact .smsAnswer hc' _ (Or.inr rfl) (Or.inr h)
          · exact .mtSms hc' h
        · rename_i hm
          refine .rest hc' ?_ ?_ ?_
          · intro k hk ht
            apply hs
            simp only [PROC_SS] at ht ⊢
            omega
          · intro h; exact hm (Or.inr (Or.inr (Or.inr (Or.inr h))))
          · rintro t (rfl | rfl)
            · exact ⟨fun h => hm (Or.inl h), fun h => hm (Or.inr (Or.inl h))⟩
            · exact ⟨fun h => hm (Or.inr (Or.inr (Or.inl h))), fun h => hm (Or.inr (Or.inr (Or.inr (Or.inl h))))⟩

/-- C61: a received message is handed to the receiver of class `c`, as it was decoded, if and
only if it has an IMSI, belongs to `c`, and there is such a receiver. -/
theorem c61_delivered (k : Codec) (bs : Bytes) (x : Mux) (c : Nat) (m : Msg) :
    (rx k bs x).2.1 = some (c, m) ↔
      k.decode bs = .inr m ∧ m.imsi ≠ [] ∧ Belongs m c ∧ 1 ≤ c ∧ c ≤ 4 ∧ (x.rx c).isSome = true := by
  rw [classify_iff]
  unfold rx
  cases hd : k.decode bs with
  | inl rc => exact ⟨nofun, fun h => absurd h.1 nofun⟩
  | inr m' =>
    dsimp only
    by_cases hi : m'.imsi.isEmpty = true
    · rw [if_pos hi]
      refine ⟨nofun, ?_⟩
      rintro ⟨h, h2, _⟩
      cases h
      exact absurd (List.isEmpty_iff.mp hi) h2
    · rw [if_neg hi]
      have hne : m'.imsi ≠ [] := fun h => hi (by rw [h]; rfl)
      by_cases hc : classify m' = 0 ∨ ARRAYSIZE ≤ classify m'
      · rw [if_pos hc]
        refine ⟨nofun, ?_⟩
        rintro ⟨h, _, h3, h4, h5, _⟩
        cases h
        simp only [ARRAYSIZE] at hc
        omega
      · rw [if_neg hc]
        simp only [ARRAYSIZE] at hc
        cases hr : x.rx (classify m') with
        | none =>
          refine ⟨nofun, ?_⟩
          rintro ⟨h, _, h3, _, _, h6⟩
          cases h
          rw [h3] at hr; rw [hr] at h6; cases h6
        | some f =>
          constructor
          · intro h
            cases h
            exact ⟨rfl, hne, rfl, by omega, by omega, by rw [hr]; rfl⟩
          · rintro ⟨h, _, h3, _⟩
            cases h
            rw [h3]

/-- C61: a message belongs to exactly one part. -/
theorem c61_one (m : Msg) : ∃ c, Belongs m c ∧ ∀ c', Belongs m c' → c' = c :=
  ⟨classify m, (classify_iff m _).mpr rfl, fun _ h => ((classify_iff m _).mp h).symm⟩

/-- C61: the multiplexer sends a message of its own only as the error reply to a request
without IMSI; it is addressed to the sender of the request, carries the name of the
multiplexer and ends the session of the request, if any. -/
theorem c61_reply (k : Codec) (bs : Bytes) (x : Mux) (s s' : St) (hs : x.client = some s)
    (hs' : (rx k bs x).2.2.client = some s') :
    s' = s ∨ ∃ m r, k.decode bs = .inr m ∧ m.imsi = [] ∧ m.typ % 4 = 0 ∧ r.typ = m.typ + 1 ∧ r.cause = some .invMandInfo ∧
      r.cls = m.cls ∧ r.dst = m.src ∧ r.smRpMr = m.smRpMr ∧ (∀ n, x.serno = some n → r.src = n ++ [0]) ∧
      (m.sessState ≠ .none → r.sessState = .end_ ∧ r.sessId = m.sessId) ∧
      ∃ out, k.encode r = .inr out ∧ s' = (send out s).2 := by
  have same : some s' = x.client → s' = s := fun h => by rw [hs] at h; exact Option.some.inj h
  unfold rx at hs'
  cases hd : k.decode bs with
  | inl rc => rw [hd] at hs'; exact Or.inl (same hs'.symm)
  | inr m =>
    rw [hd] at hs'
    dsimp only at hs'
    by_cases hi : m.imsi.isEmpty = true
    · rw [if_pos hi] at hs'
      dsimp only at hs'
      by_cases hq : isRequest m.typ = true
      · rw [if_pos hq] at hs'
        unfold txErrorReply at hs'
        rw [if_neg (by rw [hq]; simp)] at hs'
        unfold encSend at hs'
        cases he : k.encode (errorReply x m .invMandInfo) with
        | inl rc => rw [he] at hs'; exact Or.inl (same hs'.symm)
        | inr out =>
          rw [he, hs] at hs'
          have hs' : (send out s).2 = s' := Option.some.inj hs'
          have hq : m.typ % 4 = 0 := by simpa [isRequest] using hq
          refine Or.inr ⟨m, errorReply x m .invMandInfo, rfl, List.isEmpty_iff.mp hi, hq, ?_, ?_, ?_, ?_, ?_, ?_, ?_, out, he, hs'.symm⟩
          all_goals unfold errorReply setSource
          · rw [hs]; cases x.serno <;> dsimp only <;> split <;> simp [toError, hq]
          · rw [hs]; cases x.serno <;> dsimp only <;> split <;> rfl
          · rw [hs]; cases x.serno <;> dsimp only <;> split <;> rfl
          · rw [hs]; cases x.serno <;> dsimp only <;> split <;> rfl
          · rw [hs]; cases x.serno <;> dsimp only <;> split <;> rfl
          · intro n hn
            rw [hs, hn]; dsimp only; split <;> rfl
          · intro hn
            rw [hs]; cases x.serno <;> dsimp only <;> rw [if_pos hn] <;> exact ⟨rfl, rfl⟩
      · rw [if_neg hq] at hs'; exact Or.inl (same hs'.symm)
    · rw [if_neg hi] at hs'
      left
      apply same
      rw [← hs']
      split
      · rfl
      · split <;> rfl

/-- C61: a message is taken for sending (return code 0 from the client) if and only if the
multiplexer was started, the message can be encoded and the client is connected; the client
then accepted exactly its encoding. -/
theorem c61_tx (k : Codec) (m : Msg) (x : Mux) (hk : ∀ r rc, k.encode r = .inl rc → rc < 0) :
    (tx k m x).1 = 0 ↔ ∃ s bs, x.client = some s ∧ k.encode m = .inr bs ∧ s.isConnected = true ∧
      (tx k m x).2.client = some (send bs s).2 := by
  unfold tx
  cases hx : x.client with
  | none => exact ⟨nofun, fun ⟨_, _, h, _⟩ => by cases h⟩
  | some s =>
    dsimp only
    cases he : k.encode m with
    | inl rc =>
      have := hk m rc he
      exact ⟨fun h => absurd (show rc = 0 from h) (by omega), fun ⟨_, _, _, h, _⟩ => by cases h⟩
    | inr bs =>
      dsimp only
      rw [(Client.Props.c59_send bs s).1]
      constructor
      · intro h; exact ⟨s, bs, rfl, rfl, h, rfl⟩
      · rintro ⟨s', bs', h1, h2, h3, _⟩
        cases h1; exact h3

/-- A codec that knows one message, for the examples. -/
def exCodec (m : Msg) : Codec := { decode := fun _ => .inr m, encode := fun _ => .inr [1] }
/-- C61: starting the multiplexer gives it a client exactly if it says so; the receivers stay
as they are. -/
theorem c61_start (t : Nat) (rc : Int) (x : Mux) :
    ((start t rc x).1 = 0 ↔ (start t rc x).2.client.isSome = true) ∧ (start t rc x).1 ≤ 0
    ∧ (start t rc x).2.client = create t rc ∧ (start t rc x).2 = { x with client := create t rc } := by
  unfold start
  cases create t rc with
  | none => exact ⟨by simp, by simp, rfl, rfl⟩
  | some s => exact ⟨by simp, by simp, rfl, rfl⟩

/-- A started multiplexer with receivers for subscriber management and SMS. -/
def exMux : Mux := { client := some { isConnected := true, link := .up }, serno := some (b "msc"),
                     rx := fun c => if c = 1 ∨ c = 2 then some (fun _ => 0) else none }

example : (rx (exCodec { typ := MT_FORWARD_SM, imsi := b "262420000000001" }) [] exMux).2.1 =
    some (SMS, { typ := MT_FORWARD_SM, imsi := b "262420000000001" }) := by decide +kernel
example : ((rx (exCodec { typ := MT_FORWARD_SM, src := b "hlr" }) [] exMux).2.2.client.map (·.queue)) =
    some [.gsup [1]] := by decide +kernel
example : (tx (exCodec {}) { typ := 4 } exMux).1 = 0 := by decide +kernel

/-- C61 is violated for requests nobody is there for: a request with an IMSI for which no
receiver is set is neither delivered nor answered, so its sender waits in vain. -/
theorem c61_unanswered_violated : ∃ k bs x m, k.decode bs = .inr m ∧ isRequest m.typ = true ∧ m.imsi ≠ [] ∧
    Belongs m USSD ∧ (rx k bs x).2.1 = none ∧ (rx k bs x).1 = -95 ∧ x.client.map (·.queue) = some [] ∧
    (rx k bs x).2.2.client.map (·.queue) = some [] :=
  ⟨exCodec { typ := PROC_SS, imsi := b "262420000000001" }, [], exMux, _, rfl, rfl, nofun, .ss rfl 0 (by decide) rfl,
    rfl, rfl, rfl, rfl⟩

/-- C61 is violated for inter-MSC messages without a Message Class: the handover request
OSMO_GSUP_MSGT_E_PREPARE_HANDOVER_REQUEST (0x34) is handed to subscriber management. -/
theorem c61_inter_msc_violated : ∃ m, m.typ = 0x34 ∧ m.cls = 0 ∧ Belongs m SUBSCRIBER :=
  ⟨{ typ := 0x34 }, rfl, rfl, (classify_iff _ _).mpr rfl⟩

end Verif.Client.Mux.Props

import Verif.Fake.Spec
import Verif.Net.Lemmas
/-!
# Lemmas about the fake lookup method
-/
namespace Verif.Fake
open Verif Verif.Mslookup Verif.Mslookup.Client Verif.Mslookup.Client.Spec Verif.Fake.Spec
open Verif.Net (Moves rx_moves rx_noted timeout_moves cancel_moves request_eq note SameReq)

/-! ## Which request, which answer -/

theorem pick_some {f : Fake} {now : Int} {todo : List Req} {r : Req} {i : Nat} {rest : List Req} (h : f.pick now todo = some (r, i, rest)) :
    ∃ pre, todo = pre ++ r :: rest ∧ (∀ y ∈ pre, ∀ x ∈ f.resps, due now (f.came y.uid) y.query x = false)
      ∧ f.resps.findIdx? (due now (f.came r.uid) r.query) = some i := by
  induction todo with
  | nil => cases h
  | cons a l ih =>
    rw [Fake.pick] at h
    cases hf : f.resps.findIdx? (due now (f.came a.uid) a.query) with
    | some j =>
      rw [hf] at h
      cases h
      exact ⟨[], rfl, fun y hy => (by cases hy), hf⟩
    | none =>
      rw [hf] at h
      obtain ⟨pre, rfl, h1, h2⟩ := ih h
      refine ⟨a :: pre, rfl, fun y hy x hx => ?_, h2⟩
      rcases List.mem_cons.1 hy with rfl | hy
      · exact List.findIdx?_eq_none_iff.1 hf x hx
      · exact h1 y hy x hx

theorem pick_none {f : Fake} {now : Int} {todo : List Req} (h : f.pick now todo = none) :
    ∀ y ∈ todo, ∀ x ∈ f.resps, due now (f.came y.uid) y.query x = false := by
  induction todo with
  | nil => exact fun y hy => (by cases hy)
  | cons a l ih =>
    rw [Fake.pick] at h
    cases hf : f.resps.findIdx? (due now (f.came a.uid) a.query) with
    | some j => rw [hf] at h; cases h
    | none =>
      rw [hf] at h
      intro y hy x hx
      rcases List.mem_cons.1 hy with rfl | hy
      · exact List.findIdx?_eq_none_iff.1 hf x hx
      · exact ih h y hy x hx

theorem findIdx_get {p : Resp → Bool} {l : List Resp} {i : Nat} (h : l.findIdx? p = some i) :
    ∃ x, l[i]? = some x ∧ p x = true ∧ ∀ j y, j < i → l[j]? = some y → p y = false := by
  obtain ⟨hlt, h1, h2⟩ := List.findIdx?_eq_some_iff_getElem.1 h
  refine ⟨l[i], List.getElem?_eq_getElem hlt, h1, fun j y hj hy => ?_⟩
  obtain ⟨hj', rfl⟩ := List.getElem?_eq_some_iff.1 hy
  simpa using h2 j hj

/-! ## What is kept by all runs -/

/-- What is kept when answers are given is kept by the whole loop. -/
theorem pass_ind {out : Client → Client} {now : Int} {P : Fake → Prop}
    (hg : ∀ f r i x, P f → r ∈ f.client.reqs → f.resps[i]? = some x → due now (f.came r.uid) r.query x = true → P (f.give out now r i))
    (hu : ∀ f : Fake, P f → P { f with ub := true }) (n : Nat) (todo : List Req) (f : Fake) (hs : ∀ r ∈ todo, r ∈ f.client.reqs) (h : P f) :
    P (f.pass out now n todo) := by
  induction n generalizing todo f with
  | zero => exact h
  | succ n ih =>
    rw [Fake.pass]
    cases hp : f.pick now todo with
    | none => exact h
    | some t =>
      obtain ⟨r, i, rest⟩ := t
      obtain ⟨pre, rfl, -, hi⟩ := pick_some hp
      obtain ⟨x, hx, hd, -⟩ := findIdx_get hi
      have h1 := hg f r i x h (hs r (by simp)) hx hd
      cases rest with
      | nil => exact h1
      | cons next rest =>
        dsimp only
        split
        · exact hu _ h1
        · exact ih _ _ (fun y hy => (List.dropWhile_suffix _).subset hy) h1

/-- The answers as they were listed; those that were given are marked. -/
structure Listed (resps : List Resp) (f : Fake) : Prop where
  get : ∀ i, f.resps[i]? = resps[i]?.map fun (x : Resp) => { x with sent := x.sent || decide (i ∈ f.uses.map Use.resp) }
  nodup : (f.uses.map Use.resp).Nodup
  fresh : ∀ u ∈ f.uses, ∃ x, resps[u.resp]? = some x ∧ x.sent = false

theorem Listed.give {resps : List Resp} {f : Fake} (h : Listed resps f) (out : Client → Client) {now : Int} {r : Req} {i : Nat} {x : Resp}
    (hx : f.resps[i]? = some x) (hd : due now (f.came r.uid) r.query x = true) : Listed resps (f.give out now r i) := by
  have hs : x.sent = false := by
    unfold due at hd
    cases h : x.sent with
    | false => rfl
    | true => rw [h] at hd; simp at hd
  obtain ⟨x0, h0, e0⟩ : ∃ x0, resps[i]? = some x0 ∧ x = { x0 with sent := x0.sent || decide (i ∈ f.uses.map Use.resp) } := by
    have := h.get i
    rw [hx] at this
    cases hr : resps[i]? with
    | none => rw [hr] at this; cases this
    | some x0 => rw [hr] at this; exact ⟨x0, rfl, Option.some.inj this⟩
  have hsent : x0.sent = false ∧ i ∉ f.uses.map Use.resp := by
    rw [e0] at hs
    simpa using hs
  have hlt : i < f.resps.length := (List.getElem?_eq_some_iff.1 hx).1
  unfold Fake.give
  rw [hx]
  refine ⟨fun j => ?_, ?_, ?_⟩
  · show (f.resps.set i { x with sent := true })[j]? = _
    rw [List.getElem?_set]
    by_cases e : i = j
    · subst e
      rw [if_pos rfl, if_pos hlt, h0, e0]
      show some _ = some _
      congr 1
      simp
    · rw [if_neg e, h.get j]
      have : (j ∈ (⟨i, r.uid, now⟩ :: f.uses : List Use).map Use.resp) ↔ j ∈ f.uses.map Use.resp := by
        rw [List.map_cons, List.mem_cons]
        exact ⟨fun h => h.resolve_left (fun h => e h.symm), .inr⟩
      simp only [this]
  · exact List.nodup_cons.2 ⟨hsent.2, h.nodup⟩
  · intro u hu
    rcases List.mem_cons.1 hu with rfl | hu
    · exact ⟨x0, h0, hsent.1⟩
    · exact h.fresh u hu

theorem Listed.step {resps : List Resp} {f : Fake} (h : Listed resps f) (env : Env) (k : Nat) (e : Ev) : Listed resps (step env k f e) := by
  unfold Verif.Fake.step
  split
  · exact h
  cases e with
  | client e now =>
    dsimp only
    split
    · cases e <;> exact ⟨h.get, h.nodup, h.fresh⟩
    · exact ⟨h.get, h.nodup, h.fresh⟩
  | tick now =>
    dsimp only
    split
    · exact ⟨h.get, h.nodup, h.fresh⟩
    · exact pass_ind (P := Listed resps) (fun f r i x hf _ hx hd => hf.give _ hx hd) (fun f hf => ⟨hf.get, hf.nodup, hf.fresh⟩) _ _ _ (fun _ hr => hr) h
  | free => exact ⟨h.get, h.nodup, h.fresh⟩

theorem run_snoc (env : Env) (k : Nat) (resps : List Resp) (evs : List Ev) (e : Ev) :
    run env k resps (evs ++ [e]) = step env k (run env k resps evs) e := by
  unfold run
  rw [List.foldl_append]
  rfl

theorem snoc_induction {α : Type} {P : List α → Prop} (nil : P []) (snoc : ∀ l x, P l → P (l ++ [x])) (l : List α) : P l := by
  have : ∀ l : List α, P l.reverse := by
    intro l
    induction l with
    | nil => exact nil
    | cons x l ih => rw [List.reverse_cons]; exact snoc _ x ih
  have h := this l.reverse
  rw [List.reverse_reverse] at h
  exact h

theorem run_listed (env : Env) (k : Nat) (resps : List Resp) (evs : List Ev) : Listed resps (run env k resps evs) := by
  induction evs using snoc_induction with
  | nil =>
    refine ⟨fun i => ?_, List.nodup_nil, fun u hu => (by cases hu)⟩
    show resps[i]? = _
    cases resps[i]? with
    | none => rfl
    | some x => show some x = some _; congr 1; simp [run]
  | snoc evs e ih => rw [run_snoc]; exact ih.step env k e

/-- The client does what it does in a run of its own. -/
def Ran (env : Env) (k : Nat) (f : Fake) : Prop := ∃ cevs, f.client = Client.run env k cevs

theorem Ran.put {env : Env} {k : Nat} {f : Fake} (h : Ran env k f) (now : Int) (e : Client.Ev) :
    Ran env k (f.put now (Client.step env k f.client e)) := by
  obtain ⟨cevs, h⟩ := h
  exact ⟨cevs ++ [e], by rw [Client.run_snoc, ← h]; rfl⟩

theorem Ran.give {env : Env} {k : Nat} {f : Fake} (h : Ran env k f) (now : Int) (r : Req) (i : Nat) :
    Ran env k (f.give (react env k) now r i) := by
  unfold Fake.give
  split
  · exact h
  · rename_i x _
    obtain ⟨cevs, h⟩ := h
    exact ⟨cevs ++ [.rx r.handle x.result], by rw [Client.run_snoc, ← h]; rfl⟩

theorem Ran.step {env : Env} {k : Nat} {f : Fake} (h : Ran env k f) (e : Ev) : Ran env k (step env k f e) := by
  unfold Verif.Fake.step
  split
  · exact h
  cases e with
  | client e now =>
    dsimp only
    split
    · cases e <;> exact h
    · exact h.put now e
  | tick now =>
    dsimp only
    split
    · exact h
    · exact pass_ind (P := Ran env k) (fun f r i x hf _ _ _ => hf.give now r i) (fun f hf => hf) _ _ _ (fun _ hr => hr) h
  | free => exact h

theorem run_ran (env : Env) (k : Nat) (resps : List Resp) (evs : List Ev) : Ran env k (run env k resps evs) := by
  induction evs using snoc_induction with
  | nil => exact ⟨[], rfl⟩
  | snoc evs e ih => rw [run_snoc]; exact ih.step e

end Verif.Fake

import Verif.Config.Lemmas
import Verif.Config.Spec
/-! # Reading what was written: nodes and indentation -/
namespace Verif.Config
open Verif Verif.Sys Verif.Mslookup Verif.Mslookup.Mdns Verif.Config.Spec

theorem goodWord_iff (w : Bytes) : isWord w = true ↔ GoodWord w := by
  unfold isWord GoodWord
  simp only [Bool.and_eq_true, Bool.not_eq_true', List.all_eq_true, List.isEmpty_eq_false_iff]

theorem readLines_append (e : Env) (r : Reader) (l1 l2 : List Line) :
    readLines e r (l1 ++ l2) = (readLines e r l1).bind fun r => readLines e r l2 := by
  induction l1 generalizing r with
  | nil => rfl
  | cons l l1 ih =>
    rw [List.cons_append, readLines, readLines]
    cases readLine e r l with
    | none => rfl
    | some r' => exact ih r'

/-- The line with this indentation is a command of node `n`, which has been entered with this
indentation before. -/
def At (k : Nat) (n : Node) (ps : Parents) : Node → Option Nat → Parents → Prop
  | m, i, [] => m = n ∧ i = some k ∧ ps = []
  | m, i, (p, k') :: qs => (m = n ∧ i = some k ∧ ps = (p, k') :: qs) ∨
      ((∀ j, i = some j → k < j) ∧ At k n ps p (some k') qs)

theorem At.le {k n ps m j qs} (h : At k n ps m (some j) qs) : k ≤ j := by
  cases qs with
  | nil => obtain ⟨-, h, -⟩ := h; cases h; exact Nat.le_refl _
  | cons q qs =>
    obtain ⟨p, k'⟩ := q
    rcases h with ⟨-, h, -⟩ | ⟨h, -⟩
    · cases h; exact Nat.le_refl _
    · exact Nat.le_of_lt (h j rfl)

theorem At.align {k n ps m i qs} (h : At k n ps m i qs) : align k m i qs = some (n, k, ps) := by
  induction qs generalizing m i with
  | nil =>
    obtain ⟨rfl, rfl, rfl⟩ := h
    rw [Config.align, if_pos rfl]
  | cons q qs ih =>
    obtain ⟨p, k'⟩ := q
    rcases h with ⟨rfl, rfl, rfl⟩ | ⟨h1, h2⟩
    · rw [Config.align, if_pos rfl]
    · cases i with
      | none =>
        rw [Config.align, if_neg (Nat.not_lt.2 h2.le)]
        exact ih h2
      | some j =>
        have := h1 j rfl
        rw [Config.align, if_neg (by omega), if_neg (by omega)]
        exact ih h2

/-- A node entered above stays what it is when a line further to the right is read. -/
theorem At.keep {k n ps m i qs j n' j' ps'} (h : At k n ps m i qs) (hj : k < j)
    (ha : Config.align j m i qs = some (n', j', ps')) : j' = j ∧ At k n ps n' (some j) ps' := by
  induction qs generalizing m i with
  | nil =>
    obtain ⟨rfl, rfl, rfl⟩ := h
    rw [Config.align, if_neg (by omega)] at ha
    cases ha
  | cons q qs ih =>
    obtain ⟨p, k'⟩ := q
    cases i with
    | none =>
      rw [Config.align] at ha
      rcases h with ⟨-, h, -⟩ | ⟨-, h2⟩
      · cases h
      · split at ha
        · cases ha
          exact ⟨rfl, Or.inr ⟨fun j'' e => by cases e; exact hj, h2⟩⟩
        · exact ih h2 ha
    | some i =>
      rw [Config.align] at ha
      rcases h with ⟨rfl, h, rfl⟩ | ⟨h1, h2⟩
      · cases h
        rw [if_neg (by omega), if_pos (by omega)] at ha
        cases ha
      · split at ha
        · rename_i e
          cases ha
          subst e
          exact ⟨rfl, Or.inr ⟨fun j'' e => by cases e; exact hj, h2⟩⟩
        · split at ha
          · cases ha
          · exact ih h2 ha

/-- The same for a whole reader. -/
def Reader.At (k : Nat) (n : Node) (ps : Parents) (r : Reader) : Prop := Config.At k n ps r.node r.ind r.parents

theorem At.push {k n ps m j qs n'} (h : Config.At k n ps m (some j) qs) : Config.At k n ps n' none ((m, j) :: qs) :=
  Or.inr ⟨(fun _ e => nomatch e), h⟩

/-- One line that is a command. -/
theorem readLine_at {e : Env} {r : Reader} {k : Nat} {n : Node} {ps : Parents} {ws : List Bytes} {c : Cmd}
    (ha : align k r.node r.ind r.parents = some (n, k, ps)) (hw : ws ≠ []) (hp : parse e n ws = some c)
    (hx : (exec true n r.st c).1 ≠ .incomplete) :
    readLine e r (k, ws) = some (if (exec true n r.st c).2.1.kind = n.kind then
      { node := (exec true n r.st c).2.1, ind := some k, parents := ps, st := (exec true n r.st c).2.2 }
      else { node := (exec true n r.st c).2.1, ind := none, parents := (n, k) :: ps, st := (exec true n r.st c).2.2 }) := by
  unfold readLine
  dsimp only
  rw [if_neg hw, ha]
  dsimp only
  rw [hp]
  dsimp only
  generalize exec true n r.st c = x at hx ⊢
  obtain ⟨res, n', s⟩ := x
  cases res with
  | incomplete => exact absurd rfl hx
  | ok => dsimp only; split <;> rfl
  | warning => dsimp only; split <;> rfl

/-- A line further to the right, whatever it is, leaves the nodes above alone. -/
theorem readLine_keep {e : Env} {r r' : Reader} {k : Nat} {n : Node} {ps : Parents} {l : Line}
    (h : r.At k n ps) (hj : k < l.1) (hr : readLine e r l = some r') : r'.At k n ps := by
  unfold readLine at hr
  split at hr
  · cases hr; exact h
  · split at hr
    · cases hr
    · rename_i n' k' ps' ha
      obtain ⟨rfl, hk⟩ := At.keep h hj ha
      split at hr
      · cases hr
      · split at hr
        · cases hr
        · split at hr
          · cases hr
            unfold Reader.At
            dsimp only
            revert hk
            cases ps' with
            | nil => rintro ⟨-, h, -⟩; cases h; omega
            | cons q qs =>
              rintro (⟨-, h, -⟩ | h2)
              · cases h; omega
              · exact Or.inr h2
          · cases hr
            exact At.push hk

/-- A line at this place whose command does not change to another node of the same kind. -/
theorem readLine_same {e : Env} {r r' : Reader} {k : Nat} {n : Node} {ps : Parents} {ws : List Bytes}
    (h : r.At k n ps) (hn : ∀ c n' res s, parse e n ws = some c → exec true n r.st c = (res, n', s) → n'.kind = n.kind → n' = n)
    (hr : readLine e r (k, ws) = some r') : r'.At k n ps := by
  unfold readLine at hr
  split at hr
  · cases hr; exact h
  · rw [show align _ _ _ _ = _ from h.align] at hr
    dsimp only at hr
    split at hr
    · cases hr
    · rename_i c hc
      split at hr
      · cases hr
      · rename_i res n' s hx
        have hs : Config.At k n ps n (some k) ps := by
          cases ps with
          | nil => exact ⟨rfl, rfl, rfl⟩
          | cons q qs => exact Or.inl ⟨rfl, rfl, rfl⟩
        split at hr
        · rename_i hk
          cases hr
          have := hn c _ _ _ hc hx hk
          subst this
          exact hs
        · cases hr
          exact At.push hs

end Verif.Config

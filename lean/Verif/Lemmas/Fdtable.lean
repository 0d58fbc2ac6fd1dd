import Verif.Model.Fdtable
/-
The table of descriptors.
-/

set_option autoImplicit false

namespace Minilib

variable {α : Type}

theorem fdPut_getD (l : List (Option α)) (i j : Nat) (x : Option α) :
    (fdPut l i x).getD j none = if j = i then x else l.getD j none := by
  unfold fdPut
  simp only [List.getD_eq_getElem?_getD]
  split
  · rename_i h
    rw [List.getElem?_set]
    by_cases hj : i = j
    · subst hj; rw [if_pos rfl, if_pos h, if_pos rfl]; rfl
    · rw [if_neg hj, if_neg (by omega)]
  · rename_i h
    by_cases hj : j = i
    · subst hj
      rw [if_pos rfl, List.getElem?_append_right (by simp; omega)]
      simp
      rw [show j - (l.length + (j - l.length)) = 0 by omega]
      rfl
    · rw [if_neg hj]
      by_cases h1 : j < l.length
      · rw [List.append_assoc, List.getElem?_append_left h1]
      · rw [List.getElem?_eq_none (l := l) (by omega)]
        by_cases h2 : j < i
        · rw [List.getElem?_append_left (by simp; omega), List.getElem?_append_right (by omega), List.getElem?_replicate_of_lt (by omega)]
          rfl
        · rw [List.getElem?_eq_none (by simp; omega)]

theorem fdLowest_le {l : List (Option α)} {i : Nat} (h : l.getD i none = none) : fdLowest l ≤ i := by
  induction l generalizing i with
  | nil => exact Nat.zero_le _
  | cons x l ih =>
    cases x with
    | none => exact Nat.zero_le _
    | some x =>
      cases i with
      | zero => simp at h
      | succ i =>
        have := ih (i := i) (by simpa using h)
        simp only [fdLowest]
        omega

theorem fdLowest_none : ∀ (l : List (Option α)), l.getD (fdLowest l) none = none
  | [] => rfl
  | none :: _ => rfl
  | some _ :: l => by
    rw [fdLowest, List.getD_cons_succ]
    exact fdLowest_none l

theorem fdGet_nat (l : List (Option α)) (i : Nat) : fdGet l i = l.getD i none := by
  unfold fdGet
  rw [if_neg (by omega)]
  rfl

end Minilib

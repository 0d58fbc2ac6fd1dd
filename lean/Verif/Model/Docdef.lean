import Verif.Model.Stripundefs
/-
Declarations in the documentation: /repo/scripts/genheaders.pl.
-/

set_option autoImplicit false

namespace Minilib

/-- `(__attribute__\(.*?\))`, scripts/genheaders.pl:516: what is left behind it; `.*?` ends at the first bracket that closes, in the same line. -/
def reAttr (l : Line) : Option Line :=
  if begins [95, 95, 97, 116, 116, 114, 105, 98, 117, 116, 101, 95, 95, 40] l = true ∧ ((l.drop 14).takeWhile (· ≠ 10#8)).contains 41#8 = true then some (((l.drop 14).dropWhile (· ≠ 41#8)).drop 1) else none

theorem reAttr_length {l t : Line} (h : reAttr l = some t) : t.length ≤ l.length - 14 := by
  unfold reAttr at h
  split at h
  · cases h
    have h1 : ((l.drop 14).dropWhile (· ≠ 41#8)).length ≤ (l.drop 14).length := List.IsSuffix.length_le (List.dropWhile_suffix _)
    simp only [List.length_drop] at h1 ⊢
    omega
  · cases h

/-- `s/(static)|(inline)|(volatile)|(__attribute__\(.*?\))//g`, scripts/genheaders.pl:516. -/
def docStrip : Line → Line
  | [] => []
  | b :: r =>
    if begins [115, 116, 97, 116, 105, 99] (b :: r) then docStrip (r.drop 5)
    else if begins [105, 110, 108, 105, 110, 101] (b :: r) then docStrip (r.drop 5)
    else if begins [118, 111, 108, 97, 116, 105, 108, 101] (b :: r) then docStrip (r.drop 7)
    else match h : reAttr (b :: r) with
      | some t => docStrip t
      | none => b :: docStrip r
termination_by l => l.length
decreasing_by
  all_goals simp only [List.length_cons, List.length_drop]
  all_goals first
    | omega
    | (have := reAttr_length h
       simp only [List.length_cons] at this
       omega)

end Minilib

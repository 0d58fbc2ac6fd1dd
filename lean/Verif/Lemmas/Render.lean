import Verif.Lemmas.PrintfConv
import Verif.Spec.Printf
import Verif.Props.Radix
/-
Numbers without a width, as itodec writes them.
-/

set_option autoImplicit false

namespace Minilib
open Mem Spec

theorem numeral_length_le {b n k : Nat} (hb : 2 ≤ b) (h : n < b ^ k) (hk : 1 ≤ k) : (numeral b n).length ≤ k := by
  by_cases h0 : n = 0
  · subst h0
    unfold numeral digitsOf
    rw [dif_pos (by omega)]
    simpa using hk
  · rw [numeral, List.length_map, ← nd_eq h0]
    exact nd_le hb h

/-- A number without a width, with or without separators. -/
theorem itodec_render {v : Int} {lim pad : Byte} (h1 : -2147483648 < v) (h2 : v ≤ 2147483647) :
    Converts (fun m d => itodec m v d 0 lim pad) (signOf v ++ group lim (numeral 10 v.natAbs)) := by
  intro m d hm
  show itodec m v d 0 lim pad = _
  unfold itodec
  by_cases hneg : v < 0
  · simp only [signOf, if_pos hneg, List.singleton_append] at hm ⊢
    obtain ⟨a1, b1⟩ := store_step hm 45#8
    rw [a1]
    simp only [Res.ok_bind]
    rw [ckInt_ok (by omega) (by omega)]
    simp only [Res.ok_bind]
    have e : (-v).toNat = v.natAbs := by omega
    rw [e, C25_group_partial (by omega) (by omega) (by omega) b1, List.cons_append, write_cons]
    simp only [Res.ok_bind, List.length_cons]
    show Res.ok _ = _
    congr 2
  · simp only [signOf, if_neg hneg, List.nil_append] at hm ⊢
    have e : v.toNat = v.natAbs := by omega
    rw [e, C25_group_partial (by omega) (by omega) (by omega) hm]

end Minilib

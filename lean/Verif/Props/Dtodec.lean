import Verif.Model.Dtodec
import Verif.Lemmas.Conv
import Verif.Lemmas.Atoi
import Verif.Lemmas.Render
import Mathlib.Tactic.Linarith
/-
C92: the conversion of doubles.
-/

set_option autoImplicit false

namespace Minilib
open Mem Spec

/-- The decimal text of a double with `k` decimals, the others cut off. -/
def _root_.Spec.dblText (d : Int) (k : Nat) : List Byte :=
  signOf d ++ numeral 10 (Spec.dblWhole d) ++ [46#8] ++ Spec.decimals d k 0

/-- What dtodec makes of the billionths: blanks for the zeros in front. -/
def _root_.Spec.billionths (g : Nat) : List Byte :=
  if g = 0 then List.replicate 9 32#8 else padTo 9 32#8 (numeral 10 g)

/-- What dtodec makes of the rest: a NUL behind it, or "-0". -/
def _root_.Spec.wholePart (d : Int) : List Byte :=
  if d ≤ -(Spec.one : Int) ∨ 0 < d then signOf d ++ numeral 10 (Spec.dblWhole d) ++ [0#8] else [45#8, 48#8]

/-- `g` is about the billionths of the double: at most 0.101 too large and less than 0.901 too small. -/
def _root_.Spec.AboutBillionths (d : Int) (g : Nat) : Prop :=
  1000 * (g * Spec.one) ≤ 1000000000000 * Spec.dblPart d + 101 * Spec.one ∧
    1000000000000 * Spec.dblPart d < 1000 * (g * Spec.one) + 901 * Spec.one

theorem one_eq : dblOne = (Spec.one : Int) := by
  unfold dblOne Spec.one
  decide +kernel

theorem one_pos : 0 < Spec.one := by
  unfold Spec.one
  exact Nat.two_pow_pos _

attribute [local irreducible] Spec.one

theorem tenth_one : 36028797018963968 * dblTenth = 3602879701896397 * dblOne := by
  unfold dblTenth dblOne
  decide +kernel

theorem err_pos {x : Int} (h : 0 ≤ x) : 9007199254740992 * rnd x ≤ 9007199254740993 * x ∧ 9007199254740991 * x ≤ 9007199254740992 * rnd x := by
  have := rnd_err x
  generalize rnd x = y at *
  omega

/-- The sum of the errors. -/
theorem frac_about {U T F : Int} (hU : 0 < U) (hT : 36028797018963968 * T = 3602879701896397 * U) (h0 : 0 ≤ F) (h1 : F < U) :
    0 ≤ rnd (rnd (rnd F * 1000000000) + T) ∧
    1000 * rnd (rnd (rnd F * 1000000000) + T) ≤ 1000000000000 * F + 101 * U ∧
    1000000000000 * F + 99 * U ≤ 1000 * rnd (rnd (rnd F * 1000000000) + T) := by
  have t1 : 10000 * T ≤ 1001 * U := by linarith
  have t2 : 999 * U ≤ 10000 * T := by linarith
  clear hT
  have a0 := rnd_nonneg h0
  obtain ⟨a1, a2⟩ := err_pos h0
  have b0 := rnd_nonneg (x := rnd F * 1000000000) (by linarith)
  obtain ⟨b1, b2⟩ := err_pos (x := rnd F * 1000000000) (by linarith)
  have c0 := rnd_nonneg (x := rnd (rnd F * 1000000000) + T) (by linarith)
  obtain ⟨c1, c2⟩ := err_pos (x := rnd (rnd F * 1000000000) + T) (by linarith)
  generalize rnd (rnd (rnd F * 1000000000) + T) = z at *
  generalize rnd (rnd F * 1000000000) = y at *
  generalize rnd F = x at *
  -- all errors in units of 2^-53
  have x1 : 9007199254740992 * x ≤ 9007199254740992 * F + U := by linarith
  have x2 : 9007199254740992 * F ≤ 9007199254740992 * x + U := by linarith
  have x3 : x ≤ 2 * U := by linarith
  clear a1 a2
  have y1 : 9007199254740992 * y ≤ 9007199254740992 * (1000000000 * x) + 2000000000 * U := by linarith
  have y2 : 9007199254740992 * (1000000000 * x) ≤ 9007199254740992 * y + 2000000000 * U := by linarith
  have y3 : y ≤ 3000000000 * U := by linarith
  clear b1 b2
  have z1 : 9007199254740992 * z ≤ 9007199254740992 * (y + T) + 4000000000 * U := by linarith
  have z2 : 9007199254740992 * (y + T) ≤ 9007199254740992 * z + 4000000000 * U := by linarith
  clear c1 c2
  have y4 : 9007199254740992 * y ≤ 9007199254740992 * (1000000000 * F) + 3000000000 * U := by linarith
  have y5 : 9007199254740992 * (1000000000 * F) ≤ 9007199254740992 * y + 3000000000 * U := by linarith
  clear y1 y2 x1 x2 x3 y3
  have z3 : 9007199254740992 * z ≤ 9007199254740992 * (1000000000 * F + T) + 7000000000 * U := by linarith
  have z4 : 9007199254740992 * (1000000000 * F + T) ≤ 9007199254740992 * z + 7000000000 * U := by linarith
  clear z1 z2 y4 y5
  have w1 : 10000 * z ≤ 10000 * (1000000000 * F + T) + U := by linarith
  have w2 : 10000 * (1000000000 * F + T) ≤ 10000 * z + U := by linarith
  clear z3 z4
  refine ⟨c0, ?_, ?_⟩ <;> linarith

/-- The whole part, with its sign. -/
theorem whole_eq (d : Int) : d.tdiv dblOne = if d < 0 then -(Spec.dblWhole d : Int) else Spec.dblWhole d := by
  rw [one_eq]
  unfold Spec.dblWhole
  split
  · rename_i h
    obtain ⟨n, rfl⟩ : ∃ n : Nat, d = -(n : Int) := ⟨d.natAbs, by omega⟩
    rw [Int.neg_tdiv, Int.natAbs_neg, Int.natAbs_natCast]
    rfl
  · obtain ⟨n, rfl⟩ : ∃ n : Nat, d = (n : Int) := ⟨d.natAbs, by omega⟩
    rw [Int.natAbs_natCast]
    rfl

/-- What is left. -/
theorem part_eq (d : Int) : (if 0 ≤ d then d - d.tdiv dblOne * dblOne else -d + d.tdiv dblOne * dblOne) = (Spec.dblPart d : Int) := by
  rw [whole_eq, one_eq]
  have h := Nat.div_add_mod d.natAbs Spec.one
  unfold Spec.dblPart Spec.dblWhole
  have h' : ((d.natAbs / Spec.one : Nat) : Int) * (Spec.one : Int) + (d.natAbs % Spec.one : Nat) = d.natAbs := by
    rw [← Int.natCast_mul, ← Int.natCast_add, Nat.mul_comm]
    exact congrArg _ h
  clear h
  split
  · rw [if_neg (by omega)]
    omega
  · rw [if_pos (by omega), Int.neg_mul]
    omega

theorem dtodecFrac_about (d : Int) : ∃ g, dblToUint (dtodecFrac d (d.tdiv dblOne)) = .ok g ∧ Spec.AboutBillionths d g ∧ g ≤ 1000000000 := by
  unfold dtodecFrac
  rw [part_eq]
  have hU : (0 : Int) < Spec.one := by have := one_pos; omega
  have hF : Spec.dblPart d < Spec.one := Nat.mod_lt _ one_pos
  have ht := tenth_one
  rw [one_eq] at ht
  have hF' : (Spec.dblPart d : Int) < Spec.one := by exact_mod_cast hF
  obtain ⟨h0, h1, h2⟩ := frac_about hU ht (F := (Spec.dblPart d : Int)) (Int.natCast_nonneg _) hF'
  clear ht
  generalize rnd (rnd (rnd (Spec.dblPart d : Int) * 1000000000) + dblTenth) = z at *
  obtain ⟨n, rfl⟩ := Int.eq_ofNat_of_zero_le h0
  clear h0
  have hz : (n : Int).tdiv dblOne = ((n / Spec.one : Nat) : Int) := by rw [one_eq]; rfl
  have h1' : 1000 * n ≤ 1000000000000 * Spec.dblPart d + 101 * Spec.one := by exact_mod_cast h1
  have h2' : 1000000000000 * Spec.dblPart d + 99 * Spec.one ≤ 1000 * n := by exact_mod_cast h2
  clear h1 h2 hU hF'
  have hdm := Nat.div_add_mod n Spec.one
  have hml := Nat.mod_lt n one_pos
  rw [Nat.mul_comm] at hdm
  generalize n / Spec.one = g at *
  generalize n % Spec.one = r at *
  have hle : g ≤ 1000000000 := by
    apply Nat.le_of_lt_succ
    apply Nat.lt_of_not_le
    intro hcon
    have := Nat.mul_le_mul_right Spec.one hcon
    have := one_pos
    generalize g * Spec.one = G at *
    linarith
  refine ⟨g, ?_, ⟨?_, ?_⟩, hle⟩
  · unfold dblToUint
    rw [hz, if_pos (by omega)]
    simp
  · generalize g * Spec.one = G at *
    linarith
  · generalize g * Spec.one = G at *
    linarith

theorem billionths_length {g : Nat} (h : g < 1000000000) : (Spec.billionths g).length = 9 := by
  unfold Spec.billionths
  split
  · rfl
  · have := numeral_length_le (b := 10) (n := g) (k := 9) (by decide) (by omega) (by decide)
    unfold padTo
    simp
    omega

theorem billionths_le {g : Nat} (h : g ≤ 1000000000) : 9 ≤ (Spec.billionths g).length ∧ (Spec.billionths g).length ≤ 10 := by
  unfold Spec.billionths
  split
  · decide
  · have := numeral_length_le (b := 10) (n := g) (k := 10) (by decide) (by omega) (by decide)
    unfold padTo
    simp
    omega

theorem uitodec_billionths {g : Nat} (h : g ≤ 1000000000) : Converts (fun m d => uitodec m g d 9 0#8 0#8) (Spec.billionths g) := by
  intro m d hm
  by_cases hg : g < 1000000000
  · have ho : Spec.billionths g = if padOut 0#8 32#8 9 g = [] then [48#8] else padOut 0#8 32#8 9 g := by
      have h9 : ¬ (9 : Int) < nd 10 g := by
        have := nd_le (b := 10) (k := 9) (n := g) (by decide) (by omega)
        omega
      unfold padOut
      rw [if_neg h9, sep_zero]
      unfold Spec.billionths
      split
      · rename_i h0; subst h0; decide
      · rename_i h0
        have hd : dtxt (digits0 10 g) = numeral 10 g := by
          rw [numeral_eq]; unfold digits0; rw [if_neg h0]
        have hl : nd 10 g = (numeral 10 g).length := by
          rw [nd_eq h0, numeral_eq]; simp
        rw [hd, hl, if_neg (by simp [numeral_ne_nil])]
        rfl
    exact uitodec_small hg (by decide) (by decide) rfl ho hm
  · have hg' : g = 1000000000 := by omega
    subst hg'
    have hb : Spec.billionths 1000000000 = group 0#8 (numeral 10 1000000000) := by decide +kernel
    rw [hb] at hm ⊢
    exact uitodec_ten (by decide) (by decide) (by decide) (by decide) hm

/-- The whole part takes at most twelve characters. -/
theorem wholePart_length {d : Int} (hw : Spec.dblWhole d ≤ 2147483647) : (Spec.wholePart d).length ≤ 12 := by
  unfold Spec.wholePart signOf
  have := numeral_length_le (b := 10) (n := Spec.dblWhole d) (k := 10) (by decide) (by omega) (by decide)
  split
  · split <;> simp <;> omega
  · decide

/-- What dtodec does, given the billionths. -/
theorem dtodec_text {m : Mem} {d : Int} {buf g : Nat} {k : Int} (hw : Spec.dblWhole d ≤ 2147483647)
    (hk : -2147483000 ≤ k) (hk' : k ≤ 2147483000) (e2 : dblToUint (dtodecFrac d (d.tdiv dblOne)) = .ok g) (hle : g ≤ 1000000000)
    (hm : m.Mapped buf ((Spec.wholePart d).length + (Spec.billionths g).length + 2)) :
    dtodec m d buf k = .ok (m.write buf (Spec.wholePart d ++ [46#8] ++ Spec.billionths g ++ [0#8]),
        ((Spec.wholePart d).length : Int) + 1 + ((Spec.billionths g).length - 9 : Nat) + k) := by
  have hi : dblToInt d = .ok (d.tdiv dblOne) := by
    unfold dblToInt
    rw [whole_eq]
    exact ckInt_ok (by split <;> omega) (by split <;> omega)
  have hbl := billionths_le hle
  have hwl := wholePart_length hw
  have hr : (if d ≤ -dblOne ∨ 0 < d then itodec m (d.tdiv dblOne) buf 0 0#8 0#8
      else do
        let m ← m.store buf 45#8
        let m ← m.store (buf + 1) 48#8
        pure (m, 1)) = Res.ok (m.write buf (Spec.wholePart d), ((Spec.wholePart d).length : Int) - 1) ∧ 1 ≤ (Spec.wholePart d).length := by
    have hcd : (d ≤ -dblOne ∨ 0 < d) ↔ (d ≤ -(Spec.one : Int) ∨ 0 < d) := by rw [one_eq]
    unfold Spec.wholePart at hwl hm ⊢
    by_cases hc : d ≤ -(Spec.one : Int) ∨ 0 < d
    · rw [if_pos hc] at hwl hm ⊢
      rw [if_pos (hcd.2 hc)]
      have hsgn : d.tdiv dblOne < 0 ↔ d < 0 := by
        rw [whole_eq]
        split
        · rename_i h
          have : 1 ≤ Spec.dblWhole d := by
            unfold Spec.dblWhole
            exact (Nat.le_div_iff_mul_le one_pos).2 (by omega)
          omega
        · omega
      have hs : signOf (d.tdiv dblOne) = signOf d := by
        unfold signOf; simp only [hsgn]
      have ha : (d.tdiv dblOne).natAbs = Spec.dblWhole d := by
        rw [whole_eq]; split <;> omega
      have hcv := itodec_render (v := d.tdiv dblOne) (lim := 0#8) (pad := 0#8) (by rw [whole_eq]; split <;> omega) (by rw [whole_eq]; split <;> omega)
      rw [hs, ha, group_zero] at hcv
      have := hcv m buf (hm.mono (by simp only [List.length_append, List.length_singleton] at hwl ⊢; omega))
      dsimp only at this
      rw [this]
      constructor
      · congr 2; simp only [List.length_append, List.length_singleton]; omega
      · simp only [List.length_append, List.length_singleton]; omega
    · rw [if_neg hc] at hwl hm ⊢
      rw [if_neg (fun h => hc (hcd.1 h))]
      obtain ⟨⟨b0, h0⟩, hm1⟩ := mapped_succ.1 hm
      obtain ⟨⟨b1, h1⟩, -⟩ := mapped_succ.1 (hm1.upd buf 45#8)
      refine ⟨?_, by decide⟩
      rw [store_some h0, Res.ok_bind, store_some h1, Res.ok_bind, show ([45#8, 48#8] : List Byte) = [45#8] ++ [48#8] from rfl,
        write_append, write_singleton, write_singleton]
      rfl
  obtain ⟨hr, hl1⟩ := hr
  unfold dtodec
  rw [hi, Res.ok_bind, e2, Res.ok_bind, hr, Res.ok_bind]
  dsimp only
  have hp : (((Spec.wholePart d).length : Int) - 1).toNat = (Spec.wholePart d).length - 1 := by omega
  rw [hp, show buf + ((Spec.wholePart d).length - 1) + 1 = buf + (Spec.wholePart d).length by omega,
    show buf + ((Spec.wholePart d).length - 1) + 2 = buf + (Spec.wholePart d ++ [46#8]).length by simp; omega]
  have hm2 : (m.write buf (Spec.wholePart d)).Mapped buf ((Spec.wholePart d).length + (Spec.billionths g).length + 2) := hm.write _ _
  obtain ⟨bb, hbb⟩ := hm2 (Spec.wholePart d).length (by omega)
  rw [store_some hbb, Res.ok_bind, ← write_singleton, ← write_append]
  have hm3 : (m.write buf (Spec.wholePart d ++ [46#8])).Mapped (buf + (Spec.wholePart d ++ [46#8]).length) ((Spec.billionths g).length + 1) := by
    intro i hi
    rw [Nat.add_assoc]
    exact (hm.write _ _) _ (by simp; omega)
  have hu := uitodec_billionths hle _ _ hm3
  dsimp only at hu
  rw [hu, Res.ok_bind, ← write_append]
  dsimp only
  rw [ckInt_ok (by omega) (by omega), Res.ok_bind,
    ckInt_ok (by omega) (by omega), Res.ok_bind,
    ckInt_ok (by omega) (by omega), Res.ok_bind,
    ckInt_ok (by omega) (by omega), Res.ok_bind]
  have he : ((Spec.wholePart d).length : Int) - 1 + ((Spec.billionths g).length : Int) + 2 - 9 + k =
      ((Spec.wholePart d).length : Int) + 1 + ((Spec.billionths g).length - 9 : Nat) + k := by omega
  rw [he]
  simp only [Res.pure_eq, List.append_assoc]

/-- C92: what dtodec writes for every double whose whole part is an `int`, and what it answers: the whole part with its sign, a NUL,
a dot, and the billionths with blanks for leading zeros; or "-0." and the billionths, from -1 to 0.  The billionths are cut off, up
to an error of 0.101.
Partial: the property is the text of the number, without a NUL (`C92_nul_refuted`), zeros as digits (`C92_blank_refuted`), no sign
for 0 (`C92_zero_refuted`), and nine decimals for all numbers (`C92_nines_refuted`). -/
theorem C92_dtodec_partial {m : Mem} {d : Int} {buf : Nat} {k : Int} (hw : Spec.dblWhole d ≤ 2147483647)
    (hk : -2147483000 ≤ k) (hk' : k ≤ 2147483000) (hm : m.Mapped buf 24) :
    ∃ g, Spec.AboutBillionths d g ∧ g ≤ 1000000000 ∧
      dtodec m d buf k = .ok (m.write buf (Spec.wholePart d ++ [46#8] ++ Spec.billionths g ++ [0#8]),
        ((Spec.wholePart d).length : Int) + 1 + ((Spec.billionths g).length - 9 : Nat) + k) := by
  obtain ⟨g, e2, hg, hle⟩ := dtodecFrac_about d
  have hbl := billionths_le hle
  have hwl := wholePart_length hw
  exact ⟨g, hg, hle, dtodec_text hw hk hk' e2 hle (hm.mono (by omega))⟩

/-- Nine decimals: the answer is the number of characters. -/
theorem dtodec_nine {d : Int} (hw : Spec.dblWhole d ≤ 2147483647) :
    ∃ t : List Byte, t.length ≤ 27 ∧ Converts (fun m x => dtodec m d x 9) t := by
  obtain ⟨g, e2, -, hle⟩ := dtodecFrac_about d
  have hbl := billionths_le hle
  have hwl := wholePart_length hw
  refine ⟨Spec.wholePart d ++ [46#8] ++ Spec.billionths g, by simp; omega, fun m x hm => ?_⟩
  have h := dtodec_text (m := m) (buf := x) (k := 9) hw (by omega) (by omega) e2 hle (hm.mono (by simp; omega))
  dsimp only
  rw [h]
  congr 2
  simp
  omega

/-- With at most nine decimals nothing is lost. -/
theorem about_exact {d : Int} {g a : Nat} (h : Spec.AboutBillionths d g) (ha : 1000000000 * Spec.dblPart d = a * Spec.one) : g = a := by
  obtain ⟨h1, h2⟩ := h
  have hp := one_pos
  rcases Nat.lt_trichotomy g a with hc | hc | hc
  · exfalso
    have := Nat.mul_le_mul_right Spec.one (show g + 1 ≤ a from hc)
    rw [Nat.add_mul, Nat.one_mul] at this
    generalize g * Spec.one = G at *
    generalize a * Spec.one = A at *
    linarith
  · exact hc
  · exfalso
    have := Nat.mul_le_mul_right Spec.one (show a + 1 ≤ g from hc)
    rw [Nat.add_mul, Nat.one_mul] at this
    generalize g * Spec.one = G at *
    generalize a * Spec.one = A at *
    linarith

/-- Close to the next whole number there are 1000000000 billionths. -/
theorem about_nines {d : Int} {g : Nat} (h : Spec.AboutBillionths d g) (hle : g ≤ 1000000000)
    (hn : 10000000000 * Spec.one ≤ 10000000000 * Spec.dblPart d + Spec.one / 2) : g = 1000000000 := by
  obtain ⟨-, h2⟩ := h
  have hp := one_pos
  have hd := Nat.div_mul_le_self Spec.one 2
  by_contra hc
  have := Nat.mul_le_mul_right Spec.one (show g + 1 ≤ 1000000000 by omega)
  rw [Nat.add_mul, Nat.one_mul] at this
  generalize g * Spec.one = G at *
  generalize Spec.one / 2 = D at *
  linarith

/-- C92: a number with at most nine decimals: the billionths written are exactly those of the number. -/
theorem C92_exact {m : Mem} {d : Int} {buf a : Nat} {k : Int} (hw : Spec.dblWhole d ≤ 2147483647)
    (hk : -2147483000 ≤ k) (hk' : k ≤ 2147483000) (hm : m.Mapped buf 24) (ha : 1000000000 * Spec.dblPart d = a * Spec.one) :
    dtodec m d buf k = .ok (m.write buf (Spec.wholePart d ++ [46#8] ++ Spec.billionths a ++ [0#8]),
      ((Spec.wholePart d).length : Int) + 1 + k) := by
  obtain ⟨g, h1, h2, h3⟩ := C92_dtodec_partial hw hk hk' hm
  obtain rfl := about_exact h1 ha
  have hF : Spec.dblPart d < Spec.one := Nat.mod_lt _ one_pos
  have hlt : g < 1000000000 := by
    by_contra hc
    have := Nat.mul_le_mul_right Spec.one (show 1000000000 ≤ g by omega)
    generalize g * Spec.one = G at *
    linarith
  rw [h3, billionths_length hlt]
  simp

/-- C92: the text of every positive number, and of every number up to -1, ends before the dot. -/
theorem C92_cut {m : Mem} {d : Int} {buf : Nat} {k : Int} (hw : Spec.dblWhole d ≤ 2147483647)
    (hk : -2147483000 ≤ k) (hk' : k ≤ 2147483000) (hm : m.Mapped buf 24) (hd : d ≤ -(Spec.one : Int) ∨ 0 < d) :
    ∃ m' n, dtodec m d buf k = .ok (m', n) ∧ m'.IsStr buf (signOf d ++ numeral 10 (Spec.dblWhole d)) := by
  obtain ⟨g, -, -, h3⟩ := C92_dtodec_partial hw hk hk' hm
  refine ⟨_, _, h3, ?_⟩
  have hwp : Spec.wholePart d = (signOf d ++ numeral 10 (Spec.dblWhole d)) ++ [0#8] := by
    unfold Spec.wholePart; rw [if_pos hd]
  rw [hwp]
  have hnz : ∀ b ∈ signOf d ++ numeral 10 (Spec.dblWhole d), b ≠ 0#8 := by
    intro b hb
    rcases List.mem_append.1 hb with hb | hb
    · unfold signOf at hb
      split at hb
      · simp at hb; subst hb; decide
      · simp at hb
    · exact dtxt_ne_zero (digitsOf_lt (by omega)) b hb
  generalize signOf d ++ numeral 10 (Spec.dblWhole d) = w at *
  have hh : ∀ i (h : i < (w ++ [0#8]).length), (m.write buf (w ++ [0#8] ++ [46#8] ++ Spec.billionths g ++ [0#8])) (buf + i) = some (w ++ [0#8])[i] := by
    intro i h
    rw [write_inside _ _ _ _ (by simp at h ⊢; omega)]
    congr 1
    rw [List.getElem_append_left (by simp at h ⊢; omega), List.getElem_append_left (by simp at h ⊢; omega), List.getElem_append_left h]
  refine ⟨fun i h => ?_, ?_, hnz⟩
  · rw [hh i (by simp; omega), List.getElem_append_left h]
  · rw [hh w.length (by simp)]
    simp

/-- The full property, for the numbers `P`: the buffer holds the text of the number with `k` decimals, and the answer is its
length. -/
def C92_dtodec_full (P : Int → Prop) : Prop :=
  ∀ (m : Mem) (d : Int) (buf k : Nat), IsDouble d → P d → Spec.dblWhole d ≤ 2147483647 → k ≤ 8 → m.Mapped buf 24 →
    ∃ m', dtodec m d buf k = .ok (m', ((Spec.dblText d k).length : Int)) ∧ m'.Holds buf (Spec.dblText d k)

/-- Everything mapped. -/
def dtodecMem : Mem := fun _ => some 0#8

/-- C92, as the code violates it: 1.0 is "1", a NUL, and ".". -/
theorem C92_nul_refuted : ¬ C92_dtodec_full (fun d => (Spec.one : Int) ≤ d) := by
  intro hf
  have hw : Spec.dblWhole (2 ^ 1074) = 1 := by unfold Spec.dblWhole Spec.one; decide +kernel
  have ht : Spec.dblText (2 ^ 1074) 1 = [49#8, 46#8, 48#8] := by unfold Spec.dblText Spec.decimals Spec.decimals Spec.dblPart Spec.dblWhole Spec.one; decide +kernel
  obtain ⟨m', h1, h2⟩ := hf dtodecMem (2 ^ 1074) 0 1 ⟨1, 1074, by decide +kernel, by decide⟩ (by unfold Spec.one; decide +kernel)
    (by omega) (by omega) (fun _ _ => ⟨_, rfl⟩)
  obtain ⟨m'', n, h3, h4⟩ := C92_cut (m := dtodecMem) (d := 2 ^ 1074) (buf := 0) (k := 1) (by omega) (by omega) (by omega) (fun _ _ => ⟨_, rfl⟩)
    (.inr (by decide +kernel))
  have h1' : dtodec dtodecMem (2 ^ 1074) 0 1 = Res.ok (m', ((Spec.dblText (2 ^ 1074) 1).length : Int)) := h1
  rw [h1'] at h3
  obtain ⟨rfl, -⟩ := Prod.mk.inj (Res.ok.inj h3)
  rw [ht] at h2
  have a := h2 1 (by decide)
  have b := h4.2.1
  rw [hw, show (signOf (2 ^ 1074 : Int) ++ numeral 10 1) = [49#8] by decide +kernel] at b
  simp at a b
  rw [a] at b
  exact absurd b (by decide)

/-- C92, as the code violates it: -1/16 is "-0. 62500000". -/
theorem C92_blank_refuted : ¬ C92_dtodec_full (fun d => -(Spec.one : Int) < d ∧ d < 0) := by
  intro hf
  have hw : Spec.dblWhole (-2 ^ 1070) = 0 := by unfold Spec.dblWhole Spec.one; decide +kernel
  have hq : Spec.wholePart (-2 ^ 1070) = [45#8, 48#8] := by unfold Spec.wholePart Spec.one; decide +kernel
  have ht : Spec.dblText (-2 ^ 1070) 1 = [45#8, 48#8, 46#8, 48#8] := by unfold Spec.dblText Spec.decimals Spec.decimals Spec.dblPart Spec.dblWhole Spec.one; decide +kernel
  obtain ⟨m', h1, h2⟩ := hf dtodecMem (-2 ^ 1070) 0 1 ⟨1, 1070, by decide +kernel, by decide⟩ (by unfold Spec.one; decide +kernel)
    (by omega) (by omega) (fun _ _ => ⟨_, rfl⟩)
  have h3 := C92_exact (m := dtodecMem) (d := -2 ^ 1070) (buf := 0) (k := 1) (a := 62500000) (by omega) (by omega) (by omega) (fun _ _ => ⟨_, rfl⟩)
    (by unfold Spec.dblPart Spec.one; decide +kernel)
  have h1' : dtodec dtodecMem (-2 ^ 1070) 0 1 = Res.ok (m', ((Spec.dblText (-2 ^ 1070) 1).length : Int)) := h1
  rw [h1'] at h3
  obtain ⟨rfl, -⟩ := Prod.mk.inj (Res.ok.inj h3)
  rw [ht, hq, show Spec.billionths 62500000 = [32#8, 54#8, 50#8, 53#8, 48#8, 48#8, 48#8, 48#8, 48#8] by decide +kernel] at h2
  have a := h2 3 (by decide)
  rw [write_inside _ _ _ _ (by decide)] at a
  exact absurd a (by decide)

/-- C92, as the code violates it: 0 is "-0." and blanks. -/
theorem C92_zero_refuted : ¬ C92_dtodec_full (fun d => d = 0) := by
  intro hf
  have hw : Spec.dblWhole 0 = 0 := by unfold Spec.dblWhole Spec.one; decide +kernel
  have hq : Spec.wholePart 0 = [45#8, 48#8] := by unfold Spec.wholePart Spec.one; decide +kernel
  have ht : Spec.dblText 0 0 = [48#8, 46#8] := by unfold Spec.dblText Spec.decimals Spec.dblWhole Spec.one; decide +kernel
  obtain ⟨m', h1, h2⟩ := hf dtodecMem 0 0 0 ⟨0, 0, by decide, by decide⟩ rfl (by omega) (by omega) (fun _ _ => ⟨_, rfl⟩)
  have h3 := C92_exact (m := dtodecMem) (d := 0) (buf := 0) (k := 0) (a := 0) (by omega) (by omega) (by omega) (fun _ _ => ⟨_, rfl⟩)
    (by unfold Spec.dblPart Spec.one; decide +kernel)
  have h1' : dtodec dtodecMem 0 0 0 = Res.ok (m', ((Spec.dblText 0 0).length : Int)) := h1
  rw [h1'] at h3
  obtain ⟨rfl, -⟩ := Prod.mk.inj (Res.ok.inj h3)
  rw [ht, hq] at h2
  have a := h2 0 (by decide)
  rw [write_inside _ _ _ _ (by simp)] at a
  exact absurd a (by decide)

/-- C92, as the code violates it, also for numbers without a zero behind the dot: -0.9999999999999999 is "-0.1000000000". -/
theorem C92_nines_refuted : ¬ C92_dtodec_full (fun d => -(Spec.one : Int) < d ∧ d < 0 ∧ Spec.one ≤ 10 * Spec.dblPart d) := by
  intro hf
  have hw : Spec.dblWhole (-(2 ^ 1074 - 2 ^ 1021)) = 0 := by unfold Spec.dblWhole Spec.one; decide +kernel
  have hq : Spec.wholePart (-(2 ^ 1074 - 2 ^ 1021)) = [45#8, 48#8] := by unfold Spec.wholePart Spec.one; decide +kernel
  have ht : Spec.dblText (-(2 ^ 1074 - 2 ^ 1021)) 1 = [45#8, 48#8, 46#8, 57#8] := by unfold Spec.dblText Spec.decimals Spec.decimals Spec.dblPart Spec.dblWhole Spec.one; decide +kernel
  obtain ⟨m', h1, h2⟩ := hf dtodecMem (-(2 ^ 1074 - 2 ^ 1021)) 0 1 ⟨2 ^ 53 - 1, 1021, by decide +kernel, by decide⟩
    (by unfold Spec.dblPart Spec.one; decide +kernel) (by omega) (by omega) (fun _ _ => ⟨_, rfl⟩)
  obtain ⟨g, h3, h4, h5⟩ := C92_dtodec_partial (m := dtodecMem) (d := -(2 ^ 1074 - 2 ^ 1021)) (buf := 0) (k := 1) (by omega) (by omega) (by omega) (fun _ _ => ⟨_, rfl⟩)
  obtain rfl := about_nines h3 h4 (by unfold Spec.dblPart Spec.one; decide +kernel)
  have h1' : dtodec dtodecMem (-(2 ^ 1074 - 2 ^ 1021)) 0 1 = Res.ok (m', ((Spec.dblText (-(2 ^ 1074 - 2 ^ 1021)) 1).length : Int)) := h1
  rw [h1'] at h5
  obtain ⟨rfl, -⟩ := Prod.mk.inj (Res.ok.inj h5)
  rw [ht, hq, show Spec.billionths 1000000000 = [49#8, 48#8, 48#8, 48#8, 48#8, 48#8, 48#8, 48#8, 48#8, 48#8] by decide +kernel] at h2
  have a := h2 3 (by decide)
  rw [write_inside _ _ _ _ (by decide)] at a
  exact absurd a (by decide)

/-- -12.625: the text is "-12", behind it a NUL and ".625000000". -/
example : ∃ m', dtodec dtodecMem (-101 * 2 ^ 1071) 100 3 = .ok (m', 8) ∧
    m'.Holds 100 [45#8, 49#8, 50#8, 0#8, 46#8, 54#8, 50#8, 53#8, 48#8, 48#8, 48#8, 48#8, 48#8, 48#8, 0#8] := by
  have h := C92_exact (m := dtodecMem) (d := -101 * 2 ^ 1071) (buf := 100) (k := 3) (a := 625000000)
    (by unfold Spec.dblWhole Spec.one; decide +kernel) (by omega) (by omega) (fun _ _ => ⟨_, rfl⟩)
    (by unfold Spec.dblPart Spec.one; decide +kernel)
  have hq : Spec.wholePart (-101 * 2 ^ 1071) = [45#8, 49#8, 50#8, 0#8] := by unfold Spec.wholePart Spec.dblWhole Spec.one; decide +kernel
  have hb : Spec.billionths 625000000 = [54#8, 50#8, 53#8, 48#8, 48#8, 48#8, 48#8, 48#8, 48#8] := by decide +kernel
  rw [hq, hb] at h
  exact ⟨_, h, write_holds _ _ _⟩

/-- C92: the same number by the other two theorems. -/
example : (∃ g m' n, Spec.AboutBillionths (-101 * 2 ^ 1071) g ∧ dtodec dtodecMem (-101 * 2 ^ 1071) 100 3 = .ok (m', n)) ∧
    ∃ m' n, dtodec dtodecMem (-101 * 2 ^ 1071) 100 3 = .ok (m', n) ∧ m'.IsStr 100 ([45#8, 49#8, 50#8]) := by
  have hw : Spec.dblWhole (-101 * 2 ^ 1071) ≤ 2147483647 := by unfold Spec.dblWhole Spec.one; decide +kernel
  refine ⟨?_, ?_⟩
  · obtain ⟨g, h1, -, h2⟩ := C92_dtodec_partial (m := dtodecMem) (buf := 100) (k := 3) hw (by omega) (by omega) (fun _ _ => ⟨_, rfl⟩)
    exact ⟨g, _, _, h1, h2⟩
  · obtain ⟨m', n, h1, h2⟩ := C92_cut (m := dtodecMem) (buf := 100) (k := 3) hw (by omega) (by omega) (fun _ _ => ⟨_, rfl⟩)
      (Or.inl (by unfold Spec.one; decide +kernel))
    refine ⟨m', n, h1, ?_⟩
    rwa [show signOf (-101 * 2 ^ 1071) ++ numeral 10 (Spec.dblWhole (-101 * 2 ^ 1071)) = [45#8, 49#8, 50#8] by
      unfold Spec.dblWhole Spec.one; decide +kernel] at h2

end Minilib

import Verif.Lemmas.Num
import Verif.Model.Conv
import Mathlib.Tactic.IntervalCases
/-
Lemmas about the conversion loops.
-/

set_option autoImplicit false

namespace Minilib
open Mem Spec

/-- Storing a byte and continuing one further: the result is one longer write. -/
theorem store_step {m : Mem} {p n : Nat} (h : m.Mapped p (n + 1)) (b : Byte) :
    m.store p b = .ok (m.upd p b) ∧ (m.upd p b).Mapped (p + 1) n := by
  obtain ⟨⟨c, hc⟩, h2⟩ := mapped_succ.1 h
  exact ⟨store_some hc, h2.upd _ _⟩

theorem upd_write_head (m : Mem) (p : Nat) (b c : Byte) (l : List Byte) :
    (m.upd p b).write p (c :: l) = m.write p (c :: l) := by
  rw [write_cons, write_cons]
  congr 1
  funext x
  unfold Mem.upd; split <;> rfl

/-- The text of a list of decimal digits. -/
def dtxt (l : List Nat) : List Byte := l.map (digitChar false)

@[simp] theorem dtxt_length (l : List Nat) : (dtxt l).length = l.length := by simp [dtxt]
@[simp] theorem dtxt_cons (d : Nat) (l : List Nat) : dtxt (d :: l) = digitChar false d :: dtxt l := rfl
@[simp] theorem dtxt_nil : dtxt [] = [] := rfl
theorem dtxt_append (l k : List Nat) : dtxt (l ++ k) = dtxt l ++ dtxt k := by simp [dtxt]

theorem digitChar_lt {d : Nat} (h : d < 10) : digitChar false d = BitVec.ofNat 8 (48 + d) := by
  simp [digitChar, h]

/-! ### uitodec -/

set_option maxHeartbeats 1000000 in
theorem uitodecDigit_spec {i d : Nat} (hd : 1 ≤ d) (hd2 : d ≤ 100000000) (hi : i < 10 * d) :
    uitodecDigit i d = if d ≤ i then some (i / d, i % d) else none := by
  have hb : toInt32 ((i : Int) - d) = (i : Int) - d := by
    unfold toInt32
    rw [Int.bmod_def]; split <;> omega
  rw [uitodecDigit, hb]
  dsimp only
  clear hb
  obtain ⟨q, r, hr, rfl⟩ : ∃ q r, r < d ∧ i = d * q + r :=
    ⟨i / d, i % d, Nat.mod_lt _ hd, (Nat.div_add_mod i d).symm⟩
  have hq : q < 10 := by
    by_contra hq
    have : d * 10 ≤ d * q := Nat.mul_le_mul_left _ (by omega)
    omega
  rw [Nat.mul_add_div hd, Nat.div_eq_of_lt hr, Nat.mul_add_mod, Nat.mod_eq_of_lt hr]
  interval_cases q
  all_goals push_cast
  all_goals (split_ifs <;> first | rfl | (exfalso; omega) | (simp only [Option.some.injEq, Prod.mk.injEq]; exact ⟨by first | trivial | omega, by omega⟩))

/-- The table of `uitodec` from the `k`-th digit on. -/
def decTable : Nat → List Nat
  | 0 => []
  | k + 1 => (if (k + 1) % 3 = 0 then [0] else []) ++ 10 ^ k :: decTable k

theorem decTable_nine : decTable 9 = uitodecDiv := by decide

theorem uitodecDigit_pow {i k : Nat} (hk : k < 9) (hi : i < 10 ^ (k + 1)) :
    uitodecDigit i (10 ^ k) = if 10 ^ k ≤ i then some (i / 10 ^ k, i % 10 ^ k) else none := by
  apply uitodecDigit_spec
  · exact Nat.pow_pos (by omega)
  · calc 10 ^ k ≤ 10 ^ 8 := Nat.pow_le_pow_right (by omega) (by omega)
      _ = _ := by norm_num
  · rw [Nat.pow_succ] at hi; omega

theorem pow_ne (k : Nat) : ¬ (10 ^ k = 0) := by
  have : 0 < 10 ^ k := Nat.pow_pos (by omega)
  omega

/-- All remaining digits are written. -/
theorem uitodecLoop_all {lim trail : Byte} {buf : Nat} {k : Nat} (hk : k ≤ 9) :
    ∀ {m : Mem} {p i : Nat}, i < 10 ^ k →
      m.Mapped (buf + p) (sep lim (dtxt (fixDigits 10 k i))).length →
      uitodecLoop lim trail buf (decTable k) m p i 0 false
        = .ok (m.write (buf + p) (sep lim (dtxt (fixDigits 10 k i))),
            p + (sep lim (dtxt (fixDigits 10 k i))).length) := by
  induction k with
  | zero => intro m p i _ _; simp [decTable, uitodecLoop, fixDigits, sep]
  | succ k ih =>
    intro m p i hi hm
    have hdig : ∀ (m : Mem) (p : Nat), m.Mapped (buf + p)
        ((digitChar false (i / 10 ^ k % 10)) :: sep lim (dtxt (fixDigits 10 k i))).length →
        uitodecLoop lim trail buf (10 ^ k :: decTable k) m p i 0 false
        = .ok (m.write (buf + p) ((digitChar false (i / 10 ^ k % 10)) :: sep lim (dtxt (fixDigits 10 k i))),
            p + ((digitChar false (i / 10 ^ k % 10)) :: sep lim (dtxt (fixDigits 10 k i))).length) := by
      intro m p hm
      have hq : i / 10 ^ k < 10 := by
        rw [Nat.div_lt_iff_lt_mul (Nat.pow_pos (by omega))]; rw [Nat.pow_succ] at hi; omega
      rw [Nat.mod_eq_of_lt hq] at hm ⊢
      obtain ⟨hs, hm'⟩ := store_step hm (digitChar false (i / 10 ^ k))
      have hmod := @fixDigits_mod 10 k i k (le_refl _)
      have := @ih (by omega) (m.upd (buf + p) (digitChar false (i / 10 ^ k))) (p + 1) (i % 10 ^ k)
        (Nat.mod_lt _ (Nat.pow_pos (by omega))) (by rw [hmod]; exact hm')
      rw [hmod] at this
      rw [uitodecLoop, if_neg (pow_ne k), uitodecDigit_pow (by omega) hi]
      by_cases hle : 10 ^ k ≤ i
      · rw [if_pos hle]
        simp only [← digitChar_lt hq, hs, Res.ok_bind, this, write_cons, List.length_cons]
        rw [show buf + (p + 1) = buf + p + 1 by omega]
        simp; omega
      · rw [if_neg hle]
        have h0 : i / 10 ^ k = 0 := Nat.div_eq_of_lt (by omega)
        have hi' : i % 10 ^ k = i := Nat.mod_eq_of_lt (by omega)
        rw [h0] at hs this ⊢
        rw [hi'] at this
        simp only [if_true, Bool.false_eq_true, if_false]
        rw [show (48#8 : Byte) = digitChar false 0 from rfl, hs]
        simp only [Res.ok_bind, this, write_cons, List.length_cons]
        rw [show buf + (p + 1) = buf + p + 1 by omega]
        simp; omega
    simp only [fixDigits, dtxt_cons, sep, dtxt_length, fixDigits_length] at hm ⊢
    by_cases h3 : (k + 1) % 3 = 0
    · by_cases hl : lim ≠ 0#8
      · simp only [decTable, h3, if_true, hl, and_self, not_false_eq_true, ne_eq, List.singleton_append] at hm ⊢
        obtain ⟨hs, hm'⟩ := store_step hm lim
        rw [uitodecLoop, if_pos rfl, if_pos ⟨hl, rfl⟩, hs]
        simp only [Res.ok_bind]
        rw [hdig _ _ hm', write_cons _ _ lim]
        rw [show buf + (p + 1) = buf + p + 1 by omega]
        simp; omega
      · simp only [decTable, h3, if_true, hl, false_and, if_false, List.nil_append, List.singleton_append] at hm ⊢
        rw [uitodecLoop, if_pos rfl, if_neg (by tauto), hdig _ _ hm]
    · simp only [decTable, h3, and_false, if_false, List.nil_append] at hm ⊢
      exact hdig _ _ hm

end Minilib

import Verif.Spec.Num
import Mathlib.Tactic.Ring
import Mathlib.Tactic.Linarith
/-
Facts about positional notation used by the conversion functions.
-/

set_option autoImplicit false

namespace Spec

/-- The `k` lowest digits of `n` in base `b`, most significant first. -/
def fixDigits (b : Nat) : Nat → Nat → List Nat
  | 0, _ => []
  | k + 1, n => n / b ^ k % b :: fixDigits b k n

@[simp] theorem fixDigits_length (b k n : Nat) : (fixDigits b k n).length = k := by
  induction k <;> simp [fixDigits, *]

theorem fixDigits_mod {b k n j : Nat} (h : k ≤ j) : fixDigits b k (n % b ^ j) = fixDigits b k n := by
  induction k with
  | zero => rfl
  | succ k ih =>
    simp only [fixDigits, ih (by omega)]
    congr 1
    obtain ⟨i, rfl⟩ : ∃ i, j = k + 1 + i := ⟨j - (k + 1), by omega⟩
    rw [show b ^ (k + 1 + i) = b ^ k * (b ^ i * b) by ring, Nat.mod_mul_right_div_self,
      Nat.mod_mod_of_dvd _ (Dvd.intro_left _ rfl)]

theorem fixDigits_snoc (b k n : Nat) :
    fixDigits b (k + 1) n = fixDigits b k (n / b) ++ [n % b] := by
  induction k with
  | zero => simp [fixDigits]
  | succ k ih =>
    rw [fixDigits, ih, fixDigits, Nat.div_div_eq_div_mul, Nat.pow_succ']; simp

theorem digitsOf_eq_fix {b k n : Nat} (hb : 2 ≤ b) (h1 : b ^ k ≤ n ∨ k = 0) (h2 : n < b ^ (k + 1)) :
    digitsOf b n = fixDigits b (k + 1) n := by
  induction k generalizing n with
  | zero =>
    rw [digitsOf, dif_pos (by simp at h2; omega)]
    have : n < b := by simpa using h2
    simp [fixDigits, Nat.mod_eq_of_lt this]
  | succ k ih =>
    have hk : b ^ (k + 1) ≤ n := by omega
    have hbn : ¬ n < b := by
      have : b ^ 1 ≤ b ^ (k + 1) := Nat.pow_le_pow_right (by omega) (by omega)
      rw [Nat.pow_one] at this
      omega
    rw [digitsOf, dif_neg (by omega), fixDigits_snoc, ih]
    · left
      rw [Nat.le_div_iff_mul_le (by omega)]
      exact hk
    · rw [Nat.div_lt_iff_lt_mul (by omega)]
      exact h2

theorem valueOf_append (b : Nat) (l : List Nat) (d : Nat) :
    valueOf b (l ++ [d]) = valueOf b l * b + d := by simp [valueOf]

/-- The digits of `n` denote `n`. -/
theorem valueOf_digitsOf (b n : Nat) : valueOf b (digitsOf b n) = n := by
  induction n using Nat.strongRecOn with
  | _ n ih =>
    rw [digitsOf]
    split
    · simp [valueOf]
    · rename_i h
      have h1 : ¬ n < b := fun h' => h (Or.inl h')
      rw [valueOf_append, ih _ (Nat.div_lt_self (by omega) (by omega)), Nat.mul_comm]
      exact Nat.div_add_mod n b

theorem digitsOf_lt {b n : Nat} (hb : 2 ≤ b) : ∀ d ∈ digitsOf b n, d < b := by
  induction n using Nat.strongRecOn with
  | _ n ih =>
    rw [digitsOf]
    split
    · rename_i h; simp; omega
    · rename_i h
      have h1 : ¬ n < b := fun h' => h (Or.inl h')
      intro d hd
      rcases List.mem_append.1 hd with hd | hd
      · exact ih _ (Nat.div_lt_self (by omega) (by omega)) d hd
      · simp at hd; rw [hd]; exact Nat.mod_lt _ (by omega)

theorem digitsOf_ne_nil (b n : Nat) : digitsOf b n ≠ [] := by
  rw [digitsOf]; split <;> simp

/-- No leading zero, except for the number 0. -/
theorem digitsOf_head {b n : Nat} (hn : n ≠ 0) : (digitsOf b n).head? ≠ some 0 := by
  induction n using Nat.strongRecOn with
  | _ n ih =>
    rw [digitsOf]
    split
    · simpa
    · rename_i h
      have h1 : ¬ n < b := fun h' => h (Or.inl h')
      have h0 : n / b ≠ 0 := by
        have : 1 ≤ n / b := by rw [Nat.le_div_iff_mul_le (by omega)]; omega
        omega
      rw [List.head?_append]
      have := ih _ (Nat.div_lt_self (by omega) (by omega)) h0
      have hne := digitsOf_ne_nil b (n / b)
      revert this hne
      cases digitsOf b (n / b) <;> simp

/-- Number of digits of `n`, 0 for `n = 0`. -/
def nd (b n : Nat) : Nat := if n = 0 then 0 else (digitsOf b n).length

/-- The digits of `n`, none for `n = 0`. -/
def digits0 (b n : Nat) : List Nat := if n = 0 then [] else digitsOf b n

theorem digits0_length (b n : Nat) : (digits0 b n).length = nd b n := by
  unfold digits0 nd; split <;> simp

theorem digits0_big {b k n : Nat} (hb : 2 ≤ b) (h1 : b ^ k ≤ n) (h2 : n < b ^ (k + 1)) :
    digits0 b n = fixDigits b (k + 1) n := by
  have : 0 < b ^ k := Nat.pow_pos (by omega)
  rw [digits0, if_neg (by omega), digitsOf_eq_fix hb (Or.inl h1) h2]

theorem nd_big {b k n : Nat} (hb : 2 ≤ b) (h1 : b ^ k ≤ n) (h2 : n < b ^ (k + 1)) :
    nd b n = k + 1 := by rw [← digits0_length, digits0_big hb h1 h2]; simp

theorem nd_le {b k n : Nat} (hb : 2 ≤ b) (h : n < b ^ k) : nd b n ≤ k := by
  induction k with
  | zero => have : n = 0 := by simpa using h
            simp [nd, this]
  | succ k ih =>
    rcases Nat.lt_or_ge n (b ^ k) with h1 | h1
    · have := ih h1; omega
    · rw [nd_big hb h1 h]

/-- A number with leading zeros. -/
theorem fixDigits_pad {b k n : Nat} (hb : 2 ≤ b) (h : n < b ^ k) :
    fixDigits b k n = List.replicate (k - nd b n) 0 ++ digits0 b n := by
  induction k with
  | zero => have : n = 0 := by simpa using h
            simp [fixDigits, digits0, this]
  | succ k ih =>
    rcases Nat.lt_or_ge n (b ^ k) with h1 | h1
    · have h3 := nd_le hb h1
      rw [fixDigits, ih h1, Nat.div_eq_of_lt h1, show k + 1 - nd b n = (k - nd b n) + 1 by omega]
      simp [List.replicate_succ]
    · rw [nd_big hb h1 h, digits0_big hb h1 h]; simp

@[simp] theorem sep_zero (l : List Byte) : sep 0#8 l = l := by
  induction l <;> simp [sep, *]

@[simp] theorem group_zero (l : List Byte) : group 0#8 l = l := by cases l <;> simp [group]

theorem digits0_eq {b n : Nat} (h : n ≠ 0) : digits0 b n = digitsOf b n := by simp [digits0, h]
theorem nd_eq {b n : Nat} (h : n ≠ 0) : nd b n = (digitsOf b n).length := by simp [nd, h]

theorem lt_pow_nd {b n : Nat} (hb : 2 ≤ b) : n < b ^ nd b n := by
  by_contra hge
  have : ∀ k, b ^ nd b n ≤ n → n < b ^ k → False := by
    intro k
    induction k with
    | zero => intro h1 h2
              have : n = 0 := by simpa using h2
              have : 0 < b ^ nd b n := Nat.pow_pos (by omega)
              omega
    | succ k ih =>
      intro h1 h2
      rcases Nat.lt_or_ge n (b ^ k) with h3 | h3
      · exact ih h1 h3
      · rw [nd_big hb h3 h2] at h1; omega
  exact this n (by omega) (Nat.lt_pow_self (by omega))

/-- Fixed width notation is the numeral padded with zeros. -/
theorem fixDigits_padTo {b n : Nat} (hb : 2 ≤ b) (caps : Bool) {w : Int} (h : n ≠ 0 ∨ 1 ≤ w) :
    (fixDigits b (max w.toNat (nd b n)) n).map (digitChar caps)
      = padTo w 48#8 ((digitsOf b n).map (digitChar caps)) := by
  have hlt : n < b ^ (max w.toNat (nd b n)) :=
    lt_of_lt_of_le (lt_pow_nd hb) (Nat.pow_le_pow_right (by omega) (by omega))
  rw [fixDigits_pad hb hlt, List.map_append]
  unfold padTo
  by_cases h0 : n = 0
  · subst h0
    have h1 : 1 ≤ w := by omega
    have h2 : digitsOf b 0 = [0] := by rw [digitsOf, dif_pos (by omega)]
    rw [h2]
    simp only [nd, digits0, if_true, List.map_nil, List.append_nil, List.map_singleton,
      List.length_singleton, List.map_replicate]
    rw [show max w.toNat 0 - 0 = (w.toNat - 1) + 1 by omega, List.replicate_succ']
    simp [digitChar]
  · rw [digits0_eq h0, nd_eq h0, List.map_replicate, List.length_map]
    congr 1
    rw [show max w.toNat (digitsOf b n).length - (digitsOf b n).length
      = w.toNat - (digitsOf b n).length by omega]
    simp [digitChar]

end Spec

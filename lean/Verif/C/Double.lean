import Verif.C.Res
/-
Finite values of the type `double`.

Every finite double is an integer multiple of 2^-1074, and so are the sums and differences of doubles and the products of a
double and an integer.  So a value is an `Int`, its number of units of 2^-1074.  The results of operations are rounded to the
nearest value with 53 significant bits, a tie to the even one.  Values too large for a double do not come up here: all values
are below 2^33.
-/

set_option autoImplicit false

/-- The number of units of 1.0. -/
def dblOne : Int := 2 ^ 1074

/-- A finite double: at most 53 significant bits. -/
def IsDouble (x : Int) : Prop := ∃ m e : Nat, x.natAbs = m * 2 ^ e ∧ m < 2 ^ 53

/-- `n / 2^e` rounded to the nearest integer, a tie to the even one. -/
def roundEven (n e : Nat) : Nat :=
  if 2 * (n % 2 ^ e) < 2 ^ e then n / 2 ^ e
  else if 2 ^ e < 2 * (n % 2 ^ e) then n / 2 ^ e + 1
  else n / 2 ^ e + n / 2 ^ e % 2

/-- Rounding to 53 significant bits. -/
def rndNat (n : Nat) : Nat := if n < 2 ^ 53 then n else roundEven n (n.log2 - 52) * 2 ^ (n.log2 - 52)

/-- Rounding of a value to a double. -/
def rnd (x : Int) : Int := if x < 0 then -(rndNat x.natAbs : Int) else rndNat x.natAbs

/-- The constant 0.1: the double nearest to it, 3602879701896397 / 2^55. -/
def dblTenth : Int := 3602879701896397 * 2 ^ 1019

theorem roundEven_cases (n e : Nat) :
    (roundEven n e = n / 2 ^ e ∧ 2 * (n % 2 ^ e) ≤ 2 ^ e) ∨ (roundEven n e = n / 2 ^ e + 1 ∧ 2 ^ e ≤ 2 * (n % 2 ^ e)) := by
  unfold roundEven
  split
  · left; exact ⟨rfl, by omega⟩
  · split
    · right; exact ⟨rfl, by omega⟩
    · rcases Nat.mod_two_eq_zero_or_one (n / 2 ^ e) with h | h
      · left; exact ⟨by omega, by omega⟩
      · right; exact ⟨by omega, by omega⟩

theorem log2_bounds {n : Nat} (h : 2 ^ 53 ≤ n) :
    ∃ e, n.log2 - 52 = e + 1 ∧ 2 ^ 52 * 2 ^ (e + 1) ≤ n ∧ n < 2 ^ 53 * 2 ^ (e + 1) := by
  have h0 : n ≠ 0 := by omega
  have h1 : 53 ≤ n.log2 := (Nat.le_log2 h0).2 h
  refine ⟨n.log2 - 53, by omega, ?_, ?_⟩
  · rw [← Nat.pow_add, show 52 + (n.log2 - 53 + 1) = n.log2 by omega]
    exact Nat.log2_self_le h0
  · rw [← Nat.pow_add, show 53 + (n.log2 - 53 + 1) = n.log2 + 1 by omega]
    exact Nat.lt_log2_self

/-- What rounding gives: a multiple of a power of two, not further away than half of it. -/
theorem rndNat_cases {n : Nat} (h : 2 ^ 53 ≤ n) : ∃ q r P e, P = 2 ^ (e + 1) ∧ n = q * P + r ∧ r < P ∧ 2 ^ 52 ≤ q ∧ q < 2 ^ 53 ∧
    ((rndNat n = q * P ∧ 2 * r ≤ P) ∨ (rndNat n = (q + 1) * P ∧ P ≤ 2 * r)) := by
  obtain ⟨e, he, h1, h2⟩ := log2_bounds h
  have hP : 0 < 2 ^ (e + 1) := Nat.two_pow_pos _
  refine ⟨n / 2 ^ (e + 1), n % 2 ^ (e + 1), 2 ^ (e + 1), e, rfl, ?_, Nat.mod_lt _ hP, ?_, ?_, ?_⟩
  · rw [Nat.mul_comm]; exact (Nat.div_add_mod _ _).symm
  · exact (Nat.le_div_iff_mul_le hP).2 h1
  · exact (Nat.div_lt_iff_lt_mul hP).2 h2
  · unfold rndNat
    rw [if_neg (by omega), he]
    rcases roundEven_cases n (e + 1) with ⟨r1, r2⟩ | ⟨r1, r2⟩
    · left; rw [r1]; exact ⟨rfl, r2⟩
    · right; rw [r1]; exact ⟨rfl, r2⟩

theorem rndNat_double (n : Nat) : ∃ m e, rndNat n = m * 2 ^ e ∧ m < 2 ^ 53 := by
  by_cases h : n < 2 ^ 53
  · exact ⟨n, 0, by unfold rndNat; rw [if_pos h]; omega, h⟩
  · obtain ⟨q, r, P, e, rfl, hn, hr, hq1, hq2, hc⟩ := rndNat_cases (Nat.not_lt.1 h)
    rcases hc with ⟨hc, _⟩ | ⟨hc, _⟩
    · exact ⟨q, e + 1, hc, hq2⟩
    · by_cases hq : q + 1 < 2 ^ 53
      · exact ⟨q + 1, e + 1, hc, hq⟩
      · refine ⟨2 ^ 52, e + 2, ?_, by decide⟩
        rw [hc, show q + 1 = 2 ^ 53 by omega, show (2 : Nat) ^ 53 = 2 ^ 52 * 2 by decide, Nat.pow_succ 2 (e + 1), Nat.mul_assoc,
          Nat.mul_comm 2 (2 ^ (e + 1))]

/-- Rounding gives a double. -/
theorem rnd_double (x : Int) : IsDouble (rnd x) := by
  obtain ⟨m, e, h1, h2⟩ := rndNat_double x.natAbs
  refine ⟨m, e, ?_, h2⟩
  unfold rnd
  split
  · rw [← h1]; omega
  · rw [← h1]; omega

/-- The error of rounding. -/
theorem rndNat_err (n : Nat) : 2 ^ 53 * (rndNat n - n) ≤ n ∧ 2 ^ 53 * (n - rndNat n) ≤ n := by
  by_cases h : n < 2 ^ 53
  · unfold rndNat; rw [if_pos h]; omega
  · obtain ⟨q, r, P, e, -, hn, hr, hq1, hq2, hc⟩ := rndNat_cases (Nat.not_lt.1 h)
    have hqP : 2 ^ 52 * P ≤ q * P := Nat.mul_le_mul_right _ hq1
    rcases hc with ⟨hc, h2⟩ | ⟨hc, h2⟩
    · rw [hc]
      generalize q * P = A at *
      omega
    · rw [hc, Nat.add_mul, Nat.one_mul]
      generalize q * P = A at *
      omega

theorem rnd_err (x : Int) : 2 ^ 53 * (rnd x - x) ≤ x.natAbs ∧ 2 ^ 53 * (x - rnd x) ≤ x.natAbs := by
  obtain ⟨h1, h2⟩ := rndNat_err x.natAbs
  unfold rnd
  split
  · omega
  · omega

theorem rndNat_nearest (n m f : Nat) (hm : m < 2 ^ 53) :
    (rndNat n - n) + (n - rndNat n) ≤ (m * 2 ^ f - n) + (n - m * 2 ^ f) := by
  by_cases h : n < 2 ^ 53
  · unfold rndNat; rw [if_pos h]; omega
  · obtain ⟨q, r, P, e, hP, hn, hr, hq1, hq2, hc⟩ := rndNat_cases (Nat.not_lt.1 h)
    by_cases hf : e + 1 ≤ f
    · obtain ⟨k, rfl⟩ : ∃ k, f = e + 1 + k := ⟨f - (e + 1), by omega⟩
      rw [Nat.pow_add, ← hP]
      have hy : m * (P * 2 ^ k) = m * 2 ^ k * P := by rw [Nat.mul_comm P, Nat.mul_assoc]
      rw [hy]
      generalize m * 2 ^ k = t
      by_cases ht : t ≤ q
      · have := Nat.mul_le_mul_right P ht
        rcases hc with ⟨hc, h2⟩ | ⟨hc, h2⟩
        · rw [hc]; omega
        · rw [hc, Nat.add_mul, Nat.one_mul]; omega
      · have := Nat.mul_le_mul_right P (show q + 1 ≤ t by omega)
        rw [Nat.add_mul, Nat.one_mul] at this
        rcases hc with ⟨hc, h2⟩ | ⟨hc, h2⟩
        · rw [hc]; omega
        · rw [hc, Nat.add_mul, Nat.one_mul]; omega
    · have hy : m * 2 ^ f ≤ q * P := by
        calc m * 2 ^ f ≤ 2 ^ 53 * 2 ^ e := Nat.mul_le_mul (by omega) (Nat.pow_le_pow_right (by decide) (by omega))
          _ = 2 ^ 52 * P := by rw [hP, Nat.pow_succ 2 e, Nat.mul_comm (2 ^ e) 2, ← Nat.mul_assoc]
          _ ≤ q * P := Nat.mul_le_mul_right _ hq1
      rcases hc with ⟨hc, h2⟩ | ⟨hc, h2⟩
      · rw [hc]; omega
      · rw [hc, Nat.add_mul, Nat.one_mul]; omega

/-- Rounding gives a double that is nearest. -/
theorem rnd_nearest (x y : Int) (hy : IsDouble y) : (rnd x - x).natAbs ≤ (y - x).natAbs := by
  obtain ⟨m, f, h1, h2⟩ := hy
  have h := rndNat_nearest x.natAbs m f h2
  rw [← h1] at h
  unfold rnd
  split <;> omega

/-- A double is not changed. -/
theorem rnd_self {x : Int} (h : IsDouble x) : rnd x = x := by
  have := rnd_nearest x x h
  omega

theorem rnd_nonneg {x : Int} (h : 0 ≤ x) : 0 ≤ rnd x := by
  unfold rnd; rw [if_neg (by omega)]; omega

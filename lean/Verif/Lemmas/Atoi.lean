import Verif.Lemmas.ConvBase
import Verif.Lemmas.Str
import Mathlib.Data.List.Induction
/-
Lemmas about atoi and atol.
-/

set_option autoImplicit false

namespace Minilib
open Mem Spec

theorem digitChar_toInt {d : Nat} (h : d < 10) : (digitChar false d).toInt = 48 + d := by
  revert d; decide

theorem atoiLen_eq {m : Mem} {c : Nat} {s : List Byte} (hs : m.IsStr c s) (hl : s.length < 2147483648) :
    atoiLen m c 0 = .ok s.length := by
  have : ∀ n a, s.length = a + n → atoiLen m c a = .ok s.length := by
    intro n
    induction n with
    | zero =>
      intro a h
      rw [atoiLen, load_some (show m (c + a) = some 0#8 by have := hs.2.1; rwa [h] at this)]
      simp; omega
    | succ n ih =>
      intro a h
      rw [atoiLen, load_some (hs.1 a (by omega))]
      simp only [Res.ok_bind]
      rw [if_pos (hs.2.2 _ (List.getElem_mem _)), incInt_ok (by omega)]
      simp only [Res.ok_bind]
      exact ih _ (by omega)
  exact this s.length 0 (by omega)

theorem toInt32_id {x : Int} (h1 : INT_MIN ≤ x) (h2 : x ≤ INT_MAX) : toInt32 x = x := by
  unfold toInt32; rw [Int.bmod_def]; split <;> omega

/-- One digit, with room for a further one. -/
theorem atoiStep_digit {d : Nat} (hd : d < 10) {ret D : Int} (h1 : 1 ≤ D) (h2 : D ≤ 100000000)
    (hr : 0 ≤ ret) (hmax : ret + d * D ≤ INT_MAX) :
    atoiStep (digitChar false d) ret D = .ok (ret + d * D, 10 * D) := by
  have e8 : (8 : Int) * D / 4 = 2 * D := by omega
  unfold atoiStep
  rw [digitChar_toInt hd]
  have t2 : toInt32 (D * 2) = 2 * D := by rw [toInt32_id] <;> omega
  have t4 : toInt32 (2 * D * 2) = 4 * D := by rw [toInt32_id] <;> omega
  have t8 : toInt32 (4 * D * 2) = 8 * D := by rw [toInt32_id] <;> omega
  have t8' : toInt32 (D * 8) = 8 * D := by rw [toInt32_id] <;> omega
  have k10 : ckInt (8 * D + 2 * D) = .ok (10 * D) := by rw [ckInt_ok] <;> first | omega | (congr 1; omega)
  rcases Nat.eq_zero_or_pos d with h0 | h0
  · subst h0
    rw [if_neg (by omega)]
    simp only [t8', e8, k10, Res.ok_bind, Res.pure_eq]
    simp
  · rw [if_pos (by omega)]
    simp only [t2, t4, t8, e8]
    interval_cases d <;>
      (simp only [show ∀ n : Nat, (48 + (n : Int) - 48).toNat = n by intro n; omega, Res.ok_bind,
        Res.pure_eq, Nat.reduceAnd, ne_eq, not_true_eq_false, not_false_eq_true, if_true, if_false,
        k10, one_ne_zero, OfNat.ofNat_ne_zero]
       try rw [ckInt_ok (by omega) (by omega)]
       try simp only [Res.ok_bind]
       try rw [ckInt_ok (by omega) (by omega)]
       try simp only [Res.ok_bind]
       try rw [ckInt_ok (by omega) (by omega)]
       try simp only [Res.ok_bind]
       simp only [Res.ok.injEq, Prod.mk.injEq, and_true]
       push_cast; omega)

/-- The tenth digit; the weight computed for an eleventh one is meaningless. -/
theorem atoiStep_tenth {d : Nat} {ret : Int} (hr : 0 ≤ ret) (hmax : ret + d * 1000000000 ≤ INT_MAX) :
    atoiStep (digitChar false d) ret 1000000000 = .ok (ret + d * 1000000000, -737418240) := by
  have hd : d < 3 := by omega
  unfold atoiStep
  rw [digitChar_toInt (by omega)]
  have t2 : toInt32 (1000000000 * 2) = 2000000000 := by decide
  have t4 : toInt32 (2000000000 * 2) = -294967296 := by decide
  have t8 : toInt32 (-294967296 * 2) = -589934592 := by decide
  have t8' : toInt32 (1000000000 * 8) = -589934592 := by decide
  have k10 : ckInt (-589934592 + -589934592 / 4) = .ok (-737418240) := by decide
  rcases Nat.eq_zero_or_pos d with h0 | h0
  · subst h0
    rw [if_neg (by omega)]
    simp only [t8', k10, Res.ok_bind, Res.pure_eq]
    simp
  · rw [if_pos (by omega)]
    simp only [t2, t4, t8]
    interval_cases d <;>
      (simp only [show ∀ n : Nat, (48 + (n : Int) - 48).toNat = n by intro n; omega, Res.ok_bind,
        Res.pure_eq, Nat.reduceAnd, ne_eq, not_true_eq_false, not_false_eq_true, if_true, if_false,
        k10, one_ne_zero, OfNat.ofNat_ne_zero]
       try rw [ckInt_ok (by omega) (by omega)]
       try simp only [Res.ok_bind]
       simp only [Res.ok.injEq, Prod.mk.injEq, and_true]
       push_cast; omega)

/-- The weight after `j` digits. -/
def dezOf (j : Nat) : Int := if j ≤ 9 then ((10 ^ j : Nat) : Int) else -737418240

theorem valueOf_append_val (b : Nat) (l k : List Nat) :
    valueOf b (l ++ k) = valueOf b l * b ^ k.length + valueOf b k := by
  have : ∀ (k : List Nat) (a : Nat), k.foldl (fun a d => a * b + d) a = a * b ^ k.length + valueOf b k := by
    intro k
    induction k with
    | nil => intro a; simp [valueOf]
    | cons d k ih =>
      intro a
      rw [List.foldl_cons, ih]
      simp only [valueOf, List.foldl_cons, Nat.zero_mul, Nat.zero_add]
      rw [ih d, List.length_cons, Nat.pow_succ]
      unfold valueOf
      ring
  rw [valueOf, List.foldl_append, this]; rfl

/-- The digits, read from the last to the first. -/
theorem atoiLoop_digits {m : Mem} {c : Nat} {pre : List Byte} (ds : List Nat) :
    ∀ {k : Nat} {ret : Nat}, m.Holds c (pre ++ dtxt ds) → (∀ d ∈ ds, d < 10) → ds.length + k ≤ 10 →
      ret + valueOf 10 ds * 10 ^ k ≤ 2147483647 →
      atoiLoop m c (pre.length + ds.length) ret (dezOf k)
        = atoiLoop m c pre.length ((ret + valueOf 10 ds * 10 ^ k : Nat) : Int) (dezOf (k + ds.length)) := by
  induction ds using List.reverseRecOn with
  | nil => intro k ret _ _ _ _; simp [valueOf]
  | append_singleton ds d ih =>
    intro k ret hh hd hlen hv
    rw [dtxt_append, ← List.append_assoc, holds_append] at hh
    have hb : m (c + (pre.length + ds.length)) = some (digitChar false d) := by
      have := hh.2 0 (by simp)
      simpa using this
    have hd10 : d < 10 := hd d (by simp)
    rw [valueOf_append_val] at hv ⊢
    simp only [List.length_singleton, List.length_append, Nat.pow_one] at hv hlen ⊢
    have e1 : valueOf 10 [d] = d := by simp [valueOf]
    rw [e1] at hv ⊢
    have hsplit : (valueOf 10 ds * 10 + d) * 10 ^ k = d * 10 ^ k + valueOf 10 ds * 10 ^ (k + 1) := by
      rw [Nat.pow_succ]; ring
    rw [hsplit] at hv ⊢
    rw [← Nat.add_assoc, atoiLoop, load_some hb]
    simp only [Res.ok_bind]
    have hstep : atoiStep (digitChar false d) ret (dezOf k)
        = .ok (((ret + d * 10 ^ k : Nat) : Int), dezOf (k + 1)) := by
      rcases Nat.lt_or_ge k 9 with h9 | h9
      · have hp1 : 1 ≤ 10 ^ k := Nat.pow_pos (by omega)
        have hp2 : 10 ^ k ≤ 100000000 := by
          calc 10 ^ k ≤ 10 ^ 8 := Nat.pow_le_pow_right (by omega) (by omega)
            _ = _ := by norm_num
        rw [dezOf, if_pos (by omega), atoiStep_digit hd10 (by omega) (by omega) (by omega)
          (by rw [← Nat.cast_mul]; omega), dezOf, if_pos (by omega), Nat.pow_succ]
        simp only [Res.ok.injEq, Prod.mk.injEq]
        constructor <;> push_cast <;> ring
      · have : k = 9 := by omega
        subst this
        have h0 : dezOf 9 = 1000000000 := by decide
        have h1 : dezOf 10 = -737418240 := by decide
        rw [h0, h1, atoiStep_tenth (by omega) (by norm_num at hv; omega)]
        simp
    rw [hstep]
    simp only [Res.ok_bind]
    rw [ih hh.1 (fun x hx => hd x (by simp [hx])) (by omega) (by omega)]
    rw [show k + 1 + ds.length = k + (ds.length + 1) by omega, Nat.add_assoc]

theorem atoiStep_minus {j : Nat} (ret : Int) : ∃ D, atoiStep 45#8 ret (dezOf j) = .ok (ret, D) := by
  rcases Nat.lt_or_ge 9 j with h | h
  · refine ⟨-2005473280, ?_⟩
    rw [dezOf, if_neg (by omega)]
    rfl
  · interval_cases j <;> exact ⟨_, rfl⟩

theorem dtxt_ne_zero {ds : List Nat} (h : ∀ d ∈ ds, d < 10) : ∀ b ∈ dtxt ds, b ≠ 0#8 := by
  intro b hb
  simp only [dtxt, List.mem_map] at hb
  obtain ⟨d, hd, rfl⟩ := hb
  have := h d hd
  revert this; revert d; intro d _ hd; interval_cases d <;> decide

/-! ### atol -/

theorem atolLoop_digits {m : Mem} (ds : List Nat) :
    ∀ {c : Nat} {r : Nat}, m.Holds c (dtxt ds) → (∀ d ∈ ds, d < 10) →
      r * 10 ^ ds.length + valueOf 10 ds ≤ 9223372036854775807 →
      atolLoop m c r = atolLoop m (c + ds.length) ((r * 10 ^ ds.length + valueOf 10 ds : Nat) : Int) := by
  induction ds with
  | nil => intro c r _ _ _; simp [valueOf]
  | cons d ds ih =>
    intro c r hh hd hv
    rw [dtxt_cons, holds_cons] at hh
    have hd10 : d < 10 := hd d (by simp)
    have hval : r * 10 ^ (d :: ds).length + valueOf 10 (d :: ds)
        = (r * 10 + d) * 10 ^ ds.length + valueOf 10 ds := by
      have := valueOf_append_val 10 [d] ds
      rw [List.singleton_append] at this
      rw [this, List.length_cons, Nat.pow_succ]
      simp only [valueOf, List.foldl_cons, List.foldl_nil, Nat.zero_mul, Nat.zero_add]
      ring
    rw [hval] at hv ⊢
    have hp : 1 ≤ 10 ^ ds.length := Nat.pow_pos (by omega)
    have hle : r * 10 + d ≤ 9223372036854775807 := by
      calc r * 10 + d ≤ (r * 10 + d) * 10 ^ ds.length := Nat.le_mul_of_pos_right _ hp
        _ ≤ _ := by omega
    rw [atolLoop, load_some hh.1]
    simp only [Res.ok_bind]
    rw [digitChar_toInt hd10, if_pos (by omega), ckLong, if_pos (by omega)]
    simp only [Res.ok_bind]
    rw [ckLong, if_pos (by omega)]
    simp only [Res.ok_bind]
    have := @ih (c + 1) (r * 10 + d) hh.2 (fun x hx => hd x (by simp [hx])) hv
    rw [show (r : Int) * 10 + (48 + (d : Int) - 48) = ((r * 10 + d : Nat) : Int) by push_cast; omega, this,
      List.length_cons, show c + 1 + ds.length = c + (ds.length + 1) by omega]

end Minilib

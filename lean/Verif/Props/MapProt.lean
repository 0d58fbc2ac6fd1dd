import Verif.Model.MapProt
/-
Property C24: map_protected / unmap_protected.
-/

set_option autoImplicit false

namespace Minilib

/-- The kernel only hands out free pages, never page 0. -/
def KernelFree (t : Pages) (len : Nat) (k : Nat) : Prop :=
  1 ≤ k ∧ ∀ i, i < pagesOf len → t (k + i) = none

/-- Whole pages for `len` bytes the way the code rounds: always one more than `len / 4096`. -/
def roundedPages (len : Nat) : Nat := len / 4096 + 1

/-- C24 as stated, including the documented error report. -/
def C24_map_full : Prop :=
  ∀ (t : Pages) (len : Nat) (answer : Except Nat Nat), len ≤ 2147471000 →
    (∀ k, answer = .ok k → KernelFree t (4096 * (roundedPages len + 2)) k) →
    (∀ e, answer = .error e → 1 ≤ e ∧ e < 4096) →
    ∃ t' p, map_protected t len answer = .ok (t', p) ∧
      (∀ e, answer = .error e → p < 0) ∧
      (∀ k, answer = .ok k → p = ((k + 1) * 4096 : Nat) ∧ len ≤ roundedPages len * 4096 ∧
        ∀ i, t' i = if i = k ∨ i = k + 1 + roundedPages len then some .none
                    else if k < i ∧ i < k + 1 + roundedPages len then some .rw else t i)

theorem pagesOf_mul (n : Nat) : pagesOf (4096 * n) = n := by
  simp only [pagesOf, PAGESIZE]; omega

theorem protect_first (t : Pages) (k n : Nat) :
    kmprotectNone (t.set k (n + 2) (some .rw)) ((k * PAGESIZE : Nat) : Int) 1
      = ((t.set k (n + 2) (some .rw)).set k 1 (some .none), 0) := by
  unfold kmprotectNone
  rw [if_neg (by simp only [PAGESIZE]; omega)]
  have : (((k * PAGESIZE : Nat) : Int) / (PAGESIZE : Nat)).toNat = k := by simp only [PAGESIZE]; omega
  simp only [this, show pagesOf 1 = 1 by simp [pagesOf, PAGESIZE]]
  rw [if_pos (by simp [Pages.set])]

theorem protect_last (t : Pages) (k n : Nat) :
    kmprotectNone ((t.set k (n + 2) (some .rw)).set k 1 (some .none))
        (((k * PAGESIZE : Nat) : Int) + ((4096 * (n + 2) : Nat) : Int) - (PAGESIZE : Nat)) 1
      = (((t.set k (n + 2) (some .rw)).set k 1 (some .none)).set (k + 1 + n) 1 (some .none), 0) := by
  unfold kmprotectNone
  rw [if_neg (by simp only [PAGESIZE]; omega)]
  have : ((((k * PAGESIZE : Nat) : Int) + ((4096 * (n + 2) : Nat) : Int) - (PAGESIZE : Nat))
      / (PAGESIZE : Nat)).toNat = k + 1 + n := by simp only [PAGESIZE]; omega
  simp only [this, show pagesOf 1 = 1 by simp [pagesOf, PAGESIZE]]
  rw [if_pos]
  have h1 : ¬ (k + 1 + n < k + 1) := by omega
  have h2 : k ≤ k + 1 + n := by omega
  have h3 : k + 1 + n < k + (n + 2) := by omega
  simp [Pages.set, h1, h2, h3]

/-- C24: when the kernel grants the mapping, the caller gets at least `len` accessible bytes, the
page before and the page after are inaccessible, and no other page changes. -/
theorem C24_map_partial {t : Pages} {len k : Nat} (hlen : len ≤ 2147471000)
    (hk : KernelFree t (4096 * (roundedPages len + 2)) k) :
    ∃ t', map_protected t len (.ok k) = .ok (t', ((k + 1) * 4096 : Nat)) ∧
      len < roundedPages len * 4096 ∧
      ∀ i, t' i = if i = k ∨ i = k + 1 + roundedPages len then some .none
                  else if k < i ∧ i < k + 1 + roundedPages len then some .rw else t i := by
  obtain ⟨hk1, _⟩ := hk
  have hr : roundedPages len = len / 4096 + 1 := rfl
  generalize hn : roundedPages len = n at *
  have el : (len : Int) + ((PAGESIZE : Nat) - Int.tmod len (PAGESIZE : Nat)) + 2 * (PAGESIZE : Nat)
      = ((4096 * (n + 2) : Nat) : Int) := by
    simp only [PAGESIZE]
    rw [Int.tmod_eq_emod_of_nonneg (by omega)]
    omega
  unfold map_protected
  rw [el, ckInt_ok (by omega) (by omega), Res.ok_bind]
  simp only [kmmap, Int.toNat_natCast, pagesOf_mul]
  rw [if_neg (by simp only [PAGESIZE]; omega)]
  have hA := protect_first t k n
  have hB := protect_last t k n
  rw [hA, hB]
  refine ⟨((t.set k (n + 2) (some .rw)).set k 1 (some .none)).set (k + 1 + n) 1 (some .none), ?_,
    by omega, ?_⟩
  · have e3 : ((k * PAGESIZE : Nat) : Int) + (PAGESIZE : Nat) = (((k + 1) * 4096 : Nat) : Int) := by
      simp only [PAGESIZE]; omega
    rw [e3, Res.pure_eq]
  · intro i
    simp only [Pages.set]
    by_cases h1 : i = k ∨ i = k + 1 + n
    · rw [if_pos h1]
      by_cases h2 : k + 1 + n ≤ i ∧ i < k + 1 + n + 1
      · rw [if_pos h2]
      · rw [if_neg h2, if_pos (by omega)]
    · rw [if_neg h1, if_neg (by omega), if_neg (by omega)]
      by_cases h2 : k < i ∧ i < k + 1 + n
      · rw [if_pos h2, if_pos (by omega)]
      · rw [if_neg h2, if_neg (by omega)]

example : ∃ t', map_protected (fun _ => none) 4096 (.ok 7) = .ok (t', 32768) ∧
    t' 7 = some .none ∧ t' 8 = some .rw ∧ t' 9 = some .rw ∧ t' 10 = some .none ∧ t' 11 = none := by
  obtain ⟨t', e, _, h⟩ := C24_map_partial (t := fun _ => none) (len := 4096) (k := 7) (by decide)
    ⟨by decide, fun _ _ => rfl⟩
  exact ⟨t', e, by rw [h]; rfl, by rw [h]; rfl, by rw [h]; rfl, by rw [h]; rfl, by rw [h]; rfl⟩

/-- C24: unmapping with the same length restores the page table exactly. -/
theorem C24_unmap {t : Pages} {len k : Nat} (hlen : len ≤ 2147471000)
    (hk : KernelFree t (4096 * (roundedPages len + 2)) k) :
    ∃ t' p, map_protected t len (.ok k) = .ok (t', p) ∧ unmap_protected t' p len = .ok (t, 0) := by
  obtain ⟨t', e, _, h⟩ := C24_map_partial hlen hk
  refine ⟨t', _, e, ?_⟩
  obtain ⟨hk1, hfree⟩ := hk
  rw [pagesOf_mul] at hfree
  have hr : roundedPages len = len / 4096 + 1 := rfl
  generalize hn : roundedPages len = n at *
  have el : (len : Int) + ((PAGESIZE : Nat) - Int.tmod len (PAGESIZE : Nat)) = ((4096 * n : Nat) : Int) := by
    simp only [PAGESIZE]
    rw [Int.tmod_eq_emod_of_nonneg (by omega)]
    omega
  have el2 : ((4096 * n : Nat) : Int) + 2 * (PAGESIZE : Nat) = ((4096 * (n + 2) : Nat) : Int) := by
    simp only [PAGESIZE]; omega
  unfold unmap_protected
  rw [el, ckInt_ok (by omega) (by omega), Res.ok_bind, el2, ckInt_ok (by omega) (by omega), Res.ok_bind]
  unfold kmunmap
  rw [if_neg (by simp only [PAGESIZE]; omega)]
  simp only [Int.toNat_natCast, pagesOf_mul]
  have : ((((k + 1) * 4096 : Nat) : Int) - (PAGESIZE : Nat)) / (PAGESIZE : Nat) = (k : Int) := by
    simp only [PAGESIZE]; omega
  rw [this, Int.toNat_natCast]
  rw [Res.pure_eq]
  congr 2
  funext i
  simp only [Pages.set]
  split
  · have := hfree (i - k) (by omega)
    rw [show k + (i - k) = i by omega] at this
    exact this.symm
  · rw [h, if_neg (by omega), if_neg (by omega)]

example : ∃ t' p, map_protected (fun _ => none) 5000 (.ok 7) = .ok (t', p) ∧
    unmap_protected t' p 5000 = .ok (fun _ => none, 0) :=
  C24_unmap (t := fun _ => none) (len := 5000) (k := 7) (by decide) ⟨by decide, fun _ _ => rfl⟩

/-- C24 fails when the kernel refuses: ENOMEM (12) comes back as the address 4084, not as an error. -/
theorem C24_map_refuted : ¬ C24_map_full := by
  intro h
  obtain ⟨t', p, e, h1, _⟩ := h (fun _ => none) 100 (.error 12) (by decide) (by simp) (by simp)
  have e2 : map_protected (fun _ => none) (100 : Nat) (.error 12) = .ok (fun _ => none, 4084) := rfl
  rw [e2] at e
  injection e with e
  injection e with _ e
  have := h1 12 rfl
  omega

end Minilib

import Verif.Lemmas.KsortMerge
import Verif.Lemmas.KsortHeap
import Verif.Lemmas.KsortPart
/-
C60 the sorting templates, C74 ks_sample.
-/

set_option autoImplicit false

namespace Minilib
open Spec

variable {α : Type}

/-! ### examples -/

/-- A strict weak order that is not a linear one: numbers by their tens. -/
def exTens (x y : Nat) : Bool := x / 10 < y / 10

theorem exTens_weak : WeakOrder exTens := by
  constructor
  · intro x y h; simp only [exTens, decide_eq_true_eq, decide_eq_false_iff_not] at h ⊢; omega
  · intro x y z h1 h2; simp only [exTens, decide_eq_false_iff_not] at h1 h2 ⊢; omega

/-- An array with many equivalent elements. -/
def exNums (i : Nat) : Nat := i * 37 % 101

/-- The division by the shrink factor in exact arithmetic. -/
def exShrink (g : Nat) : Nat := g * 10000000000000000 / 12473309501039786

theorem exShrink_shrinks : Shrinks exShrink := by
  constructor
  · intro g h; unfold exShrink; omega
  · intro g h; unfold exShrink; omega

/-! ### C60 -/

/-- C60: ks_mergesort, for every strict weak order, every array and whatever the second array holds:
it ends, touches nothing outside the two arrays, and the array is sorted stably. -/
theorem C60_mergesort {lt : α → α → Bool} (wo : WeakOrder lt) (n : Nat) (array temp : Arr α) :
    ∃ g, ksMergesort lt n array temp = .ok g ∧ StableSortOf lt (elems n array) (elems n g) :=
  ksPasses_spec wo n 0 0 array temp (by omega) (by simpa using blocks_one lt n array)

example : ∃ g, ksMergesort exTens 100 exNums (fun _ => 0) = .ok g ∧
    StableSortOf exTens (elems 100 exNums) (elems 100 g) :=
  C60_mergesort exTens_weak 100 exNums _

/-- C60: ks_heapmake makes a heap of every array: no element is larger than its father. -/
theorem C60_heapmake {lt : α → α → Bool} (wo : WeakOrder lt) (n : Nat) (a : Arr α) :
    ∃ g, ksHeapmake lt n a = .ok g ∧ (elems n g).Perm (elems n a) ∧
      ∀ c, 0 < c → c < n → lt (g ((c - 1) / 2)) (g c) = false := by
  obtain ⟨g, e, r, h⟩ := ksHeapmake_spec lt n a
  exact ⟨g, e, r.perm (le_refl _), fun c h1 h2 => h wo c h1 h2 (by omega)⟩

/-- C60: ks_heapadjust repairs a heap at a node whose sons are heaps already. -/
theorem C60_heapadjust {lt : α → α → Bool} (wo : WeakOrder lt) (size n i : Nat) (hn : n ≤ size) (hi : i < n)
    (a : Arr α) (h : ∀ c, 0 < c → c < n → i < (c - 1) / 2 → lt (a ((c - 1) / 2)) (a c) = false) :
    ∃ g, ksHeapadjust lt size i n a = .ok g ∧ (elems size g).Perm (elems size a) ∧
      (∀ k, k < i ∨ n ≤ k → g k = a k) ∧
      ∀ c, 0 < c → c < n → i ≤ (c - 1) / 2 → lt (g ((c - 1) / 2)) (g c) = false := by
  obtain ⟨g, e, r, hh⟩ := ksHeapadjust_spec lt hn hi a
  exact ⟨g, e, r.perm hn, fun k hk => r.out hk, hh wo (fun c h1 h2 h3 => h c h1 h2 (by omega))⟩

/-- C60: ks_heapsort after ks_heapmake sorts every array. -/
theorem C60_heapsort {lt : α → α → Bool} (wo : WeakOrder lt) (n : Nat) (a : Arr α) :
    ∃ g, (do let b ← ksHeapmake lt n a; ksHeapsort lt n b) = .ok g ∧ SortOf lt (elems n a) (elems n g) := by
  obtain ⟨b, e, r, h⟩ := ksHeapmake_spec lt n a
  obtain ⟨g, e2, r2, h2⟩ := ksHeapsort_spec lt n b
  refine ⟨g, ?_, (r.trans r2).perm (le_refl _), (h2 wo (h wo)).elems⟩
  rw [e]; exact e2

/-- C60: the heap is needed.  ks_heapsort by itself leaves 1, 2, 3 as 2, 3, 1. -/
theorem C60_heapsort_alone : ∃ g, ksHeapsort (fun x y : Nat => x < y) 3 (fun i => i + 1) = .ok g ∧
    elems 3 g = [2, 3, 1] := by
  have h1 : ∀ l : Arr Nat, l 1 < l 0 → ksHeapadjust (fun x y : Nat => decide (x < y)) 3 0 (0 + 1 + 1) l = .ok l := by
    intro l hl
    unfold ksHeapadjust
    rw [rd_ok (by omega)]
    simp only [Res.ok_bind]
    rw [ksAdjustLoop, if_pos (by omega), if_neg (by omega)]
    simp only [Res.ok_bind, Res.pure_eq, Bool.false_eq_true, if_false]
    rw [rd_ok (by omega)]
    simp only [Res.ok_bind]
    rw [if_pos (by simpa using hl), wr_ok (by omega), Function.update_eq_self]
  have h2 : ∀ l : Arr Nat, ksHeapadjust (fun x y : Nat => decide (x < y)) 3 0 (0 + 1) l = .ok l := by
    intro l
    unfold ksHeapadjust
    rw [rd_ok (by omega)]
    simp only [Res.ok_bind]
    rw [ksAdjustLoop, if_neg (by omega), wr_ok (by omega), Function.update_eq_self]
  refine ⟨swp (swp (fun i => i + 1) 0 2) 0 1, ?_, by decide⟩
  show ksHeapsortLoop _ 3 _ (0 + 1 + 1) = _
  rw [ksHeapsortLoop, exch_ok (by omega) (by omega)]
  simp only [Res.ok_bind]
  rw [h1 _ (by decide)]
  simp only [Res.ok_bind]
  rw [ksHeapsortLoop, exch_ok (by omega) (by omega)]
  simp only [Res.ok_bind]
  rw [h2]
  rfl

/-- C60: __ks_insertsort sorts every array stably. -/
theorem C60_insertsort {lt : α → α → Bool} (wo : WeakOrder lt) (n : Nat) (a : Arr α) :
    ∃ g, ksInsertsort lt n 0 n a = .ok g ∧ StableSortOf lt (elems n a) (elems n g) := by
  obtain ⟨g, e, r, st, so⟩ := ksInsertsort_spec lt (n := n) (s := 0) (t := n) (le_refl _) a
  exact ⟨g, e, ⟨⟨r.perm (le_refl _), (so wo).elems⟩, st wo⟩⟩

/-- C60: __ks_insertsort on a part of an array sorts that part and leaves the rest. -/
theorem C60_insertsort_part {lt : α → α → Bool} (wo : WeakOrder lt) (n s t : Nat) (ht : t ≤ n) (a : Arr α) :
    ∃ g, ksInsertsort lt n s t a = .ok g ∧ (elems n g).Perm (elems n a) ∧
      (∀ k, k < s ∨ t ≤ k → g k = a k) ∧ ∀ i j, s ≤ i → i < j → j < t → lt (g j) (g i) = false := by
  obtain ⟨g, e, r, _, so⟩ := ksInsertsort_spec lt (s := s) ht a
  exact ⟨g, e, r.perm ht, fun k hk => r.out hk, so wo⟩

/-- C60: ks_combsort sorts every array, whatever the division by the shrink factor yields as long as
it makes gaps smaller. -/
theorem C60_combsort {shrink : Nat → Nat} (hsh : Shrinks shrink) {lt : α → α → Bool} (wo : WeakOrder lt) (n : Nat)
    (a : Arr α) :
    ∃ g, ksCombsort shrink lt n 0 n a = .ok g ∧ SortOf lt (elems n a) (elems n g) := by
  obtain ⟨g, e, r, so⟩ := ksCombsort_spec hsh wo (n := n) (s := 0) (len := n) (by omega) a
  rw [Nat.zero_add] at r so
  exact ⟨g, e, r.perm (le_refl _), so.elems⟩

example : ∃ g, ksCombsort exShrink exTens 1000 0 1000 exNums = .ok g ∧
    SortOf exTens (elems 1000 exNums) (elems 1000 g) :=
  C60_combsort exShrink_shrinks exTens_weak 1000 exNums

/-- C60: ks_introsort sorts every array; its stack of `8*d+2` entries always suffices. -/
theorem C60_introsort {shrink : Nat → Nat} (hsh : Shrinks shrink) {lt : α → α → Bool} (wo : WeakOrder lt) (n : Nat)
    (a : Arr α) :
    ∃ g, ksIntrosort shrink lt n a = .ok g ∧ SortOf lt (elems n a) (elems n g) := by
  obtain ⟨g, e, r, so⟩ := ksIntrosort_spec hsh wo n a
  exact ⟨g, e, r.perm (le_refl _), so.elems⟩

example : ∃ g, ksIntrosort exShrink exTens 1000 exNums = .ok g ∧
    SortOf exTens (elems 1000 exNums) (elems 1000 g) :=
  C60_introsort exShrink_shrinks exTens_weak 1000 exNums

/-- C60: QSORT sorts every array of up to `2^48` elements (`2^32` when the count has 32 bits): its
stack of fixed size never overflows. -/
theorem C60_qsort {lt : α → α → Bool} (wo : WeakOrder lt) (wide : Bool) (n : Nat)
    (hn : n ≤ 2 ^ (if wide then 48 else 32)) (a : Arr α) :
    ∃ g, qSort lt wide n a = .ok g ∧ SortOf lt (elems n a) (elems n g) := by
  obtain ⟨g, e, r, so⟩ := qSort_spec wo wide hn a
  exact ⟨g, e, r.perm (le_refl _), so.elems⟩

example : ∃ g, qSort exTens false 1000 exNums = .ok g ∧
    SortOf exTens (elems 1000 exNums) (elems 1000 g) :=
  C60_qsort exTens_weak false 1000 (by decide) exNums

/-- How many elements at places before `m` (or all of them) satisfy `p`. -/
theorem countP_sorted_le {p : α → Bool} {l : List α} {k : Nat} (h : ∀ i (hi : i < l.length), k ≤ i → p l[i] = false) :
    l.countP p ≤ k := by
  have h1 : l = l.take k ++ l.drop k := (List.take_append_drop k l).symm
  rw [h1, List.countP_append]
  have h2 : (l.drop k).countP p = 0 := by
    rw [List.countP_eq_zero]
    intro x hx
    obtain ⟨i, hi, rfl⟩ := List.getElem_of_mem hx
    rw [List.getElem_drop]
    simp only [List.length_drop] at hi
    rw [h (k + i) (by omega) (by omega)]; decide
  have h3 := List.countP_le_length (p := p) (l := l.take k)
  rw [List.length_take] at h3
  omega

theorem countP_sorted_ge {p : α → Bool} {l : List α} {k : Nat} (hk : k ≤ l.length)
    (h : ∀ i (hi : i < l.length), i < k → p l[i] = true) : k ≤ l.countP p := by
  have h1 : l = l.take k ++ l.drop k := (List.take_append_drop k l).symm
  rw [h1, List.countP_append]
  have h2 : (l.take k).countP p = k := by
    have : (l.take k).countP p = (l.take k).length := by
      rw [List.countP_eq_length]
      intro x hx
      obtain ⟨i, hi, rfl⟩ := List.getElem_of_mem hx
      rw [List.getElem_take]
      simp only [List.length_take] at hi
      exact h i (by omega) (by omega)
    rw [this, List.length_take]; omega
  omega

theorem elems_length (n : Nat) (a : Arr α) : (elems n a).length = n := by simp [elems]

theorem elems_get {n : Nat} {a : Arr α} {i : Nat} (h : i < (elems n a).length) : (elems n a)[i] = a i := by
  simp [elems]

/-- C60: ks_ksmall returns, for every array and every `kk` below its length, the element that sorting
puts at `kk`: in every sorted arrangement of the elements the one at `kk` is equivalent to it.  The
array is only rearranged. -/
theorem C60_ksmall {lt : α → α → Bool} (wo : WeakOrder lt) (n kk : Nat) (hk : kk < n) (arr : Arr α) :
    ∃ g x, ksKsmall lt n arr kk = .ok (g, x) ∧ (elems n g).Perm (elems n arr) ∧ x = g kk ∧ AtPlace lt n kk g ∧
      ∀ r : List α, SortOf lt (elems n arr) r → ∀ (h : kk < r.length), equiv lt r[kk] x = true := by
  obtain ⟨g, e, r, ap⟩ := ksSmallLoop_spec wo hk n 0 (n - 1) arr (by omega) (by omega)
    (.inr ⟨by omega, by omega, fun x y h => by omega, fun x y h1 h2 h3 => by omega⟩)
  have hperm := r.perm (le_refl n)
  refine ⟨g, g kk, e, hperm, rfl, ap, ?_⟩
  intro r hr hkr
  have hpr : r.Perm (elems n g) := hr.perm.trans hperm.symm
  have hsorted := List.pairwise_iff_getElem.1 hr.sorted
  have hlen : r.length = n := by rw [hpr.length_eq, elems_length]
  simp only [equiv, Bool.and_eq_true, Bool.not_eq_true']
  constructor
  · -- the one in `r` does not precede
    cases hc : lt r[kk] (g kk)
    · rfl
    · exfalso
      -- at least `kk + 1` elements of `r` precede `g kk`, at most `kk` of `g`
      have h1 : kk + 1 ≤ r.countP (fun z => lt z (g kk)) := by
        apply countP_sorted_ge (by omega)
        intro i hi hik
        cases hz : lt r[i] (g kk)
        · exfalso
          have hs : lt r[kk] r[i] = false := by
            rcases Nat.lt_or_ge i kk with h | h
            · exact hsorted i kk hi hkr h
            · have : i = kk := by omega
              subst this; exact wo.irrefl _
          have := wo.negtrans _ _ _ hs hz
          rw [hc] at this; exact absurd this (by decide)
        · rfl
      have h2 : (elems n g).countP (fun z => lt z (g kk)) ≤ kk := by
        apply countP_sorted_le
        intro i hi hik
        rw [elems_get]
        rw [elems_length] at hi
        rcases Nat.lt_or_ge kk i with h | h
        · exact ap.2 i h hi
        · have : i = kk := by omega
          subst this; exact wo.irrefl _
      rw [hpr.countP_eq] at h1
      omega
  · cases hc : lt (g kk) r[kk]
    · rfl
    · exfalso
      -- at least `kk + 1` elements of `g` are not larger than `g kk`, at most `kk` of `r`
      have h1 : kk + 1 ≤ (elems n g).countP (fun z => !lt (g kk) z) := by
        apply countP_sorted_ge (by rw [elems_length]; omega)
        intro i hi hik
        rw [elems_get, Bool.not_eq_true']
        rcases Nat.lt_or_ge i kk with h | h
        · exact ap.1 i h
        · have : i = kk := by omega
          subst this; exact wo.irrefl _
      have h2 : r.countP (fun z => !lt (g kk) z) ≤ kk := by
        apply countP_sorted_le
        intro i hi hik
        rw [Bool.not_eq_false']
        cases hz : lt (g kk) r[i]
        · exfalso
          have hs : lt r[i] r[kk] = false := by
            rcases Nat.lt_or_ge kk i with h | h
            · exact hsorted kk i hkr hi h
            · have : i = kk := by omega
              subst this; exact wo.irrefl _
          have := wo.negtrans _ _ _ hz hs
          rw [hc] at this; exact absurd this (by decide)
        · rfl
      rw [← hpr.countP_eq] at h1
      omega

example : ∃ g x, ksKsmall exTens 100 exNums 50 = .ok (g, x) ∧ AtPlace exTens 100 50 g ∧ x = g 50 := by
  obtain ⟨g, x, e, _, h1, h2, _⟩ := C60_ksmall exTens_weak 100 50 (by decide) exNums
  exact ⟨g, x, e, h2, h1⟩

/-- C60: ks_shuffle rearranges every array, whatever numbers below `i` the generator yields. -/
theorem C60_shuffle (rnd : Nat → Nat) (hr : ∀ i, 0 < i → rnd i < i) (n : Nat) (a : Arr α) :
    ∃ g, ksShuffle rnd n a = .ok g ∧ (elems n g).Perm (elems n a) := by
  have : ∀ (i : Nat) (b : Arr α), i ≤ n → ∃ g, ksShuffleLoop rnd n b i = .ok g ∧ RIn 0 n b g := by
    intro i
    induction i using Nat.strong_induction_on with
    | _ i ih =>
      intro b hi
      match i, hi, ih with
      | 0, _, _ => exact ⟨b, rfl, RIn.refl _ _ _⟩
      | 1, _, _ => exact ⟨b, rfl, RIn.refl _ _ _⟩
      | i + 2, hi, ih =>
        have h1 := hr (i + 2) (by omega)
        obtain ⟨g, e, r⟩ := ih (i + 1) (by omega) (swp b (rnd (i + 2)) (i + 1)) (by omega)
        refine ⟨g, ?_, (RIn.swp b (by omega) (by omega) (by omega) (by omega)).trans r⟩
        rw [ksShuffleLoop, exch_ok (by omega) (by omega)]
        exact e
  obtain ⟨g, e, r⟩ := this n a (le_refl _)
  exact ⟨g, e, r.perm (le_refl _)⟩

example : ∃ g, ksShuffle (fun i => i / 2) 100 exNums = .ok g ∧ (elems 100 g).Perm (elems 100 exNums) :=
  C60_shuffle _ (fun i h => by omega) 100 exNums

/-! ### C74 ks_sample -/

/-- Facts of IEEE arithmetic used below: what subtracting a zero, multiplying with it and dividing it
does, and that nothing is less than the NaN that `0/0` gives. -/
structure Ieee (F : Doubles) (zero : F.D) : Prop where
  mul_zero : F.mulInt F.one 0 = zero
  zero_div : ∀ p : Int, p ≠ 0 → F.divInt zero p = zero
  sub_zero : F.sub F.one zero = F.one
  nan : ∀ x, F.lt x (F.sub F.one (F.divInt zero 0)) = false

/-- The last round of ks_sample runs down to a division by zero (or beyond every `int`). -/
theorem ksSampleLoop_last {F : Doubles} {zero : F.D} (hf : Ieee F zero) {x : F.D} (hx : F.lt x F.one = true) (pop : Int) :
    ksSampleLoop F x 0 F.one pop = .ok (-1) ∨ ksSampleLoop F x 0 F.one pop = .ub := by
  have step : ∀ p : Int, p ≠ 0 → INT_MIN ≤ p - 1 → p - 1 ≤ INT_MAX →
      ksSampleLoop F x 0 F.one p = ksSampleLoop F x 0 F.one (p - 1) := by
    intro p h h1 h2
    rw [ksSampleLoop, if_pos hx, ckInt_ok h1 h2]
    simp only [Res.ok_bind]
    rw [hf.mul_zero, hf.zero_div p h, hf.sub_zero]
  have hub : ∀ p : Int, ¬ (INT_MIN ≤ p - 1 ∧ p - 1 ≤ INT_MAX) → ksSampleLoop F x 0 F.one p = .ub := by
    intro p h
    rw [ksSampleLoop, if_pos hx, ckInt, if_neg h]; rfl
  have hzero : ksSampleLoop F x 0 F.one 0 = .ok (-1) := by
    rw [ksSampleLoop, if_pos hx, ckInt_ok (by decide) (by decide)]
    simp only [Res.ok_bind]
    rw [hf.mul_zero, ksSampleLoop, hf.nan]
    rfl
  by_cases h2 : pop - 1 ≤ INT_MAX
  · rcases Int.lt_or_le pop 0 with hneg | hpos
    · right
      have : ∀ (d : Nat) (p : Int), p < 0 → p - INT_MIN ≤ d → ksSampleLoop F x 0 F.one p = .ub := by
        intro d
        induction d with
        | zero => intro p hp hd; exact hub p (by omega)
        | succ d ih =>
          intro p hp hd
          by_cases hm : INT_MIN ≤ p - 1
          · rw [step p (by omega) hm (by have : (INT_MAX : Int) = 2147483647 := rfl; omega)]
            exact ih (p - 1) (by omega) (by omega)
          · exact hub p (by omega)
      exact this (pop - INT_MIN).toNat pop hneg (by omega)
    · left
      have : ∀ (d : Nat) (p : Int), 0 ≤ p → p ≤ d → p - 1 ≤ INT_MAX → ksSampleLoop F x 0 F.one p = .ok (-1) := by
        intro d
        induction d with
        | zero => intro p h1 h2 h3; rw [show p = 0 by omega]; exact hzero
        | succ d ih =>
          intro p h1 h2 h3
          by_cases h0 : p = 0
          · rw [h0]; exact hzero
          · rw [step p h0 (by have : (INT_MIN : Int) = -2147483648 := rfl; omega) h3]
            exact ih (p - 1) (by omega) (by omega) (by omega)
      exact this pop.toNat pop hpos (by omega) h2
  · right; exact hub pop (by omega)

/-- The property one would expect: ks_sample returns and only rearranges the array. -/
def C74_sample_full : Prop :=
  ∀ (F : Doubles) (zero : F.D), Ieee F zero → ∀ (x : Nat → F.D), (∀ k, F.lt (x k) F.one = true) →
    ∀ (n r : Nat) (a : Arr Nat), r < n → ∃ g, ksSample F x n r a = .ok g

/-- C74: it never does: for every array, every sample smaller than it and every sequence of random
numbers, the last round leaves the array (or an earlier round did, or never ended). -/
theorem C74_sample_never (F : Doubles) (zero : F.D) (hf : Ieee F zero) (x : Nat → F.D)
    (hx : ∀ k, F.lt (x k) F.one = true) (n r : Nat) (a : Arr α) (hr : r < n) :
    ∀ g, ksSample F x n r a ≠ .ok g := by
  have key : ∀ (i : Nat) (b : Arr α) (k : Nat) (pop : Int), k + i = r → ∀ g, ksSampleRounds F x n b k pop i ≠ .ok g := by
    intro i
    induction i with
    | zero =>
      intro b k pop hk g
      rw [ksSampleRounds]
      rcases ksSampleLoop_last hf (hx k) pop with h | h
      · rw [h]
        simp only [Res.ok_bind]
        rw [ksSampleSwap, if_pos (by omega), if_neg (by omega)]
        have : ((n : Int) - -1 - 1).toNat = n := by omega
        rw [this, exch, rd_ok (by omega)]
        simp [rd]
      · rw [h]; simp
    | succ i ih =>
      intro b k pop hk g hg
      rw [ksSampleRounds] at hg
      obtain ⟨p, _, hg⟩ := Res.bind_eq_ok.1 hg
      obtain ⟨b', _, hg⟩ := Res.bind_eq_ok.1 hg
      exact ih b' (k + 1) p (by omega) g hg
  exact key r a 0 n (by omega)

/-- Whole numbers with a NaN, as an instance of the facts assumed. -/
def exDoubles : Doubles where
  D := Option Int
  one := some 1
  lt x y := match x, y with | some x, some y => decide (x < y) | _, _ => false
  sub x y := match x, y with | some x, some y => some (x - y) | _, _ => none
  mulInt x i := x.map (· * i)
  divInt x p := if p = 0 then none else x.map (· / p)

theorem exDoubles_ieee : Ieee exDoubles (some 0) := by
  constructor
  · rfl
  · intro p hp; simp [exDoubles, hp]
  · rfl
  · intro x; cases x <;> rfl

theorem C74_sample_refuted : ¬ C74_sample_full := by
  intro h
  obtain ⟨g, hg⟩ := h exDoubles (some 0) exDoubles_ieee (fun _ => some 0) (fun _ => rfl) 3 1 exNums (by decide)
  exact C74_sample_never exDoubles (some 0) exDoubles_ieee (fun _ => some 0) (fun _ => rfl) 3 1 exNums (by decide) g hg

example : ∃ g, ksHeapmake exTens 100 exNums = .ok g ∧ ∀ c, 0 < c → c < 100 → exTens (g ((c - 1) / 2)) (g c) = false := by
  obtain ⟨g, h1, -, h2⟩ := C60_heapmake exTens_weak 100 exNums
  exact ⟨g, h1, h2⟩

/-- The top of a heap of 3, 20 and 10, replaced by a smaller one. -/
example : ∃ g, ksHeapadjust exTens 3 0 3 (fun i => if i = 0 then 3 else 30 - 10 * i) = .ok g ∧
    ∀ c, 0 < c → c < 3 → exTens (g ((c - 1) / 2)) (g c) = false := by
  obtain ⟨g, h1, -, -, h2⟩ := C60_heapadjust exTens_weak 3 3 0 (by decide) (by decide) (fun i => if i = 0 then 3 else 30 - 10 * i)
    (fun c _ _ h => by omega)
  exact ⟨g, h1, fun c hc hc' => h2 c hc hc' (Nat.zero_le _)⟩

example : ∃ g, (do let b ← ksHeapmake exTens 100 exNums; ksHeapsort exTens 100 b) = .ok g ∧
    SortOf exTens (elems 100 exNums) (elems 100 g) := C60_heapsort exTens_weak 100 exNums

example : ∃ g, ksInsertsort exTens 100 0 100 exNums = .ok g ∧ StableSortOf exTens (elems 100 exNums) (elems 100 g) :=
  C60_insertsort exTens_weak 100 exNums

/-- Samples of 3 of 10 with a generator that always gives 0. -/
example : ∀ g, ksSample exDoubles (fun _ => some 0) 10 3 exNums ≠ .ok g :=
  C74_sample_never exDoubles (some 0) exDoubles_ieee (fun _ => some 0) (fun _ => by decide) 10 3 exNums (by decide)

end Minilib

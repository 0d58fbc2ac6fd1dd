import Verif.Lemmas.Ksort
/-
Lemmas about the templates that partition: introsort, ks_ksmall, QSORT.
-/

set_option autoImplicit false

namespace Minilib
open Spec

variable {α : Type}

/-! ### introsort -/

theorem ksUp_spec {lt : α → α → Bool} {n z : Nat} {rp : α} {a : Arr α} (hz : z < n) (hs : lt (a z) rp = false) :
    ∀ (d i : Nat), z - i ≤ d → i < z → ∃ i', ksUp lt n rp a i = .ok i' ∧ i < i' ∧ i' ≤ z := by
  intro d
  induction d with
  | zero => intro i h1 h2; omega
  | succ d ih =>
    intro i hd hi
    rw [ksUp, rd_ok (by omega)]
    simp only [Res.ok_bind]
    by_cases hc : lt (a (i + 1)) rp = true
    · rw [if_pos hc]
      have : i + 1 ≠ z := by rintro h; rw [h, hs] at hc; exact absurd hc (by decide)
      obtain ⟨i', e, h1, h2⟩ := ih (i + 1) (by omega) (by omega)
      exact ⟨i', e, by omega, h2⟩
    · rw [if_neg hc]
      exact ⟨i + 1, rfl, by omega, by omega⟩

theorem ksDown_spec {lt : α → α → Bool} {n i : Nat} {rp : α} {a : Arr α} (hi : 0 < i) :
    ∀ (j : Nat), 0 < j → j ≤ n → ∃ j', ksDown lt n rp a i j = .ok j' ∧ j' < j := by
  intro j
  induction j with
  | zero => intro h; omega
  | succ j ih =>
    intro _ hn
    rw [ksDown, if_neg (by omega), Nat.add_sub_cancel]
    by_cases hc : i ≤ j
    · rw [if_pos hc, rd_ok (by omega)]
      simp only [Res.ok_bind]
      split
      · obtain ⟨j', e, h⟩ := ih (by omega) (by omega)
        exact ⟨j', e, by omega⟩
      · exact ⟨j, rfl, by omega⟩
    · rw [if_neg hc]
      exact ⟨j, rfl, by omega⟩

/-- The partition of introsort stays inside `s..t` whatever the comparison, as long as no element
precedes itself. -/
theorem ksPart_spec {lt : α → α → Bool} (hirr : ∀ x, lt x x = false) {n s t : Nat} {rp : α} (ht : t < n) :
    ∀ (d i j : Nat) (a : Arr α), j ≤ d → s ≤ i → i < j → j ≤ t → a t = rp →
    ∃ g i', ksPart lt n rp a i j = .ok (g, i') ∧ RIn s (t + 1) a g ∧ s < i' ∧ i' ≤ t := by
  intro d
  induction d with
  | zero => intro i j a h1 h2 h3; omega
  | succ d ih =>
    intro i j a hd hs hij hj ha
    rw [ksPart]
    obtain ⟨i', e1, h1, h2⟩ := ksUp_spec (lt := lt) (rp := rp) (a := a) ht (by rw [ha]; exact hirr _) (t - i) i
      (le_refl _) (by omega)
    rw [e1]
    simp only [Res.ok_bind]
    obtain ⟨j', e2, h3⟩ := ksDown_spec (lt := lt) (n := n) (rp := rp) (a := a) (i := i') (by omega) j (by omega) (by omega)
    rw [e2]
    simp only [Res.ok_bind]
    by_cases hc : j' ≤ i'
    · rw [if_pos hc]
      exact ⟨a, i', rfl, RIn.refl _ _ _, by omega, h2⟩
    · rw [if_neg hc, exch_ok (by omega) (by omega)]
      simp only [Res.ok_bind]
      obtain ⟨g, i2, e3, r, h4, h5⟩ := ih i' j' (swp a i' j') (by omega) (by omega) (by omega) (by omega)
        (by rw [swp_ne _ (by omega) (by omega)]; exact ha)
      exact ⟨g, i2, e3, (RIn.swp a (by omega) (by omega) (by omega) (by omega)).trans r, h4, h5⟩

theorem ksSplit_spec {lt : α → α → Bool} (hirr : ∀ x, lt x x = false) {n s t : Nat} (hs : s < t) (ht : t < n)
    (a : Arr α) :
    ∃ g i, ksSplit lt n a s t = .ok (g, i) ∧ RIn s (t + 1) a g ∧ s < i ∧ i ≤ t := by
  have hmed : ∃ k, ksMedian lt n a s t (s + (t - s) / 2 + 1) = .ok k ∧ s ≤ k ∧ k ≤ t := by
    unfold ksMedian
    rw [ltAt_ok (by omega) (by omega)]
    simp only [Res.ok_bind]
    split
    · rw [ltAt_ok (by omega) (by omega)]
      simp only [Res.ok_bind]
      split
      · exact ⟨t, rfl, by omega, by omega⟩
      · exact ⟨_, rfl, by omega, by omega⟩
    · rw [ltAt_ok (by omega) (by omega)]
      simp only [Res.ok_bind]
      split
      · exact ⟨s, rfl, by omega, by omega⟩
      · exact ⟨t, rfl, by omega, by omega⟩
  obtain ⟨k, ek, k1, k2⟩ := hmed
  unfold ksSplit
  rw [ek]
  simp only [Res.ok_bind]
  rw [rd_ok (by omega)]
  simp only [Res.ok_bind]
  have hsw : ∃ b, (if k ≠ t then exch n a k t else pure a) = .ok b ∧ RIn s (t + 1) a b ∧ b t = a k := by
    by_cases h : k ≠ t
    · rw [if_pos h, exch_ok (by omega) (by omega)]
      exact ⟨_, rfl, RIn.swp a (by omega) (by omega) (by omega) (by omega), swp_right _ _ _⟩
    · rw [if_neg h]
      exact ⟨a, rfl, RIn.refl _ _ _, by rw [not_not.1 h]⟩
  obtain ⟨b, eb, rb, hb⟩ := hsw
  rw [eb]
  simp only [Res.ok_bind]
  obtain ⟨g, i, e, r, h1, h2⟩ := ksPart_spec hirr (rp := a k) ht t s t b (le_refl _) (le_refl s) hs (le_refl _) hb
  rw [e]
  simp only [Res.ok_bind]
  rw [exch_ok (by omega) (by omega)]
  exact ⟨_, i, rfl, (rb.trans r).trans (RIn.swp g (by omega) (by omega) (by omega) (by omega)), h1, h2⟩

/-- What introsort does when a range is done: the top of the stack, or the final insertion sort. -/
def ksIntroPop (shrink : Nat → Nat) (lt : α → α → Bool) (n cap : Nat) (a : Arr α) : List KsFrame → Res (Arr α)
  | [] => ksInsertsort lt n 0 n a
  | f :: st => ksIntroLoop shrink lt n cap a f.left f.right f.depth st

theorem ksIntro_done (shrink : Nat → Nat) (lt : α → α → Bool) {n cap s t : Nat} {d : Int} {a : Arr α}
    {st : List KsFrame} (h : t ≤ s) :
    ksIntroLoop shrink lt n cap a s t d st = ksIntroPop shrink lt n cap a st := by
  rw [ksIntroLoop.eq_def, if_neg (by omega)]
  cases st <;> rfl

/-- A range is rearranged within itself, then the rest follows.  `K` bounds the depth of the stack: a
range of at most `2^K` elements pushes no more than `K` entries. -/
theorem ksIntroLoop_spec {shrink : Nat → Nat} (hsh : Shrinks shrink) {lt : α → α → Bool} (wo : WeakOrder lt)
    {n cap : Nat} : ∀ (D s t K : Nat) (d : Int) (a : Arr α) (st : List KsFrame), t - s ≤ D → t < n → s ≤ t →
    t - s + 1 ≤ 2 ^ K → st.length + K ≤ cap →
    ∃ g, RIn s (t + 1) a g ∧ ksIntroLoop shrink lt n cap a s t d st = ksIntroPop shrink lt n cap g st := by
  intro D
  induction D with
  | zero =>
    intro s t K d a st hD ht hst hK hcap
    exact ⟨a, RIn.refl _ _ _, ksIntro_done _ _ (by omega)⟩
  | succ D ih =>
    intro s t K d a st hD ht hst hK hcap
    by_cases hlt : s < t
    · rw [ksIntroLoop.eq_def, if_pos hlt]
      by_cases hd : d - 1 = 0
      · rw [if_pos hd]
        obtain ⟨g, e, r, _⟩ := ksCombsort_spec hsh wo (n := n) (s := s) (len := t - s + 1) (by omega) a
        rw [e]
        simp only [Res.ok_bind]
        rw [ksIntro_done _ _ (le_refl s)]
        exact ⟨g, r.mono (le_refl _) (by omega), rfl⟩
      · rw [if_neg hd]
        obtain ⟨g, i, e, r, h1, h2⟩ := ksSplit_spec wo.irrefl hlt ht a
        rw [e]
        simp only [Res.ok_bind]
        unfold ksHalves
        by_cases hc : t - i < i - s
        · rw [if_pos hc]
          by_cases hp : 16 < i - s
          · rw [if_pos hp]
            have hK1 : 1 ≤ K := by
              rcases Nat.eq_zero_or_pos K with h | h
              · subst h; omega
              · exact h
            obtain ⟨K', rfl⟩ : ∃ K', K = K' + 1 := ⟨K - 1, by omega⟩
            have hpow : 2 ^ (K' + 1) = 2 * 2 ^ K' := by ring
            have hpos : 0 < 2 ^ K' := Nat.two_pow_pos _
            rw [ksPush, if_pos (by omega)]
            simp only [Res.ok_bind, Res.pure_eq]
            obtain ⟨g1, r1, e1⟩ := ih (if 16 < t - i then i + 1 else t) t K' (d - 1) g (⟨s, i - 1, d - 1⟩ :: st)
              (by split <;> omega) ht (by split <;> omega) (by split <;> omega) (by simp only [List.length_cons]; omega)
            rw [e1]
            obtain ⟨g2, r2, e2⟩ := ih s (i - 1) (K' + 1) (d - 1) g1 st (by omega) (by omega) (by omega) (by omega) hcap
            refine ⟨g2, ?_, e2⟩
            refine (r.trans (r1.mono ?_ (le_refl _))).trans (r2.mono (le_refl _) (by omega))
            split <;> omega
          · rw [if_neg hp, if_neg (by omega)]
            simp only [Res.ok_bind, Res.pure_eq]
            exact ⟨g, r, ksIntro_done _ _ (le_refl t)⟩
        · rw [if_neg hc]
          by_cases hp : 16 < t - i
          · rw [if_pos hp]
            have hK1 : 1 ≤ K := by
              rcases Nat.eq_zero_or_pos K with h | h
              · subst h; omega
              · exact h
            obtain ⟨K', rfl⟩ : ∃ K', K = K' + 1 := ⟨K - 1, by omega⟩
            have hpow : 2 ^ (K' + 1) = 2 * 2 ^ K' := by ring
            have hpos : 0 < 2 ^ K' := Nat.two_pow_pos _
            rw [ksPush, if_pos (by omega)]
            simp only [Res.ok_bind, Res.pure_eq]
            obtain ⟨g1, r1, e1⟩ := ih s (if 16 < i - s then i - 1 else s) K' (d - 1) g (⟨i + 1, t, d - 1⟩ :: st)
              (by split <;> omega) (by split <;> omega) (by split <;> omega) (by split <;> omega)
              (by simp only [List.length_cons]; omega)
            rw [e1]
            obtain ⟨g2, r2, e2⟩ := ih (i + 1) t (K' + 1) (d - 1) g1 st (by omega) (by omega) (by omega) (by omega) hcap
            refine ⟨g2, ?_, e2⟩
            refine (r.trans (r1.mono (le_refl _) ?_)).trans (r2.mono (by omega) (le_refl _))
            split <;> omega
          · rw [if_neg hp, if_neg (by omega)]
            simp only [Res.ok_bind, Res.pure_eq]
            exact ⟨g, r, ksIntro_done _ _ (le_refl s)⟩
    · exact ⟨a, RIn.refl _ _ _, ksIntro_done _ _ (by omega)⟩

theorem ksDepth_spec {n : Nat} : ∀ (e d : Nat), n - 2 ^ d ≤ e → ∃ d', ksDepth n d = .ok d' ∧ n ≤ 2 ^ d' := by
  intro e
  induction e with
  | zero => intro d h; exact ⟨d, by rw [ksDepth, if_neg (by omega)]; rfl, by omega⟩
  | succ e ih =>
    intro d h
    by_cases hc : 2 ^ d < n
    · have hp : 2 ^ (d + 1) = 2 * 2 ^ d := by ring
      have hpos : 0 < 2 ^ d := Nat.two_pow_pos _
      obtain ⟨d', e1, h1⟩ := ih (d + 1) (by omega)
      exact ⟨d', by rw [ksDepth, if_pos hc]; exact e1, h1⟩
    · exact ⟨d, by rw [ksDepth, if_neg hc]; rfl, by omega⟩

theorem ksIntrosort_spec {shrink : Nat → Nat} (hsh : Shrinks shrink) {lt : α → α → Bool} (wo : WeakOrder lt)
    (n : Nat) (a : Arr α) :
    ∃ g, ksIntrosort shrink lt n a = .ok g ∧ RIn 0 n a g ∧ SortedIn lt 0 n g := by
  unfold ksIntrosort
  by_cases h0 : n < 1
  · rw [if_pos h0]
    exact ⟨a, rfl, RIn.refl _ _ _, fun i j _ _ h => by omega⟩
  · rw [if_neg h0]
    by_cases h2 : n = 2
    · subst h2
      rw [if_pos rfl, ltAt_ok (by omega) (by omega)]
      simp only [Res.ok_bind]
      cases hc : lt (a 1) (a 0)
      · simp only [Bool.false_eq_true, if_false]
        refine ⟨a, rfl, RIn.refl _ _ _, SortedIn.of_adj wo (fun i _ h => ?_)⟩
        have : i = 0 := by omega
        subst this; exact hc
      · simp only [if_true]
        rw [exch_ok (by omega) (by omega)]
        refine ⟨_, rfl, RIn.swp a (by omega) (by omega) (by omega) (by omega), SortedIn.of_adj wo (fun i _ h => ?_)⟩
        have : i = 0 := by omega
        subst this
        rw [swp_left, swp_right]; exact wo.asymm _ _ hc
    · rw [if_neg h2]
      obtain ⟨d, e, hd⟩ := ksDepth_spec (n := n) n 2 (by omega)
      rw [e]
      simp only [Res.ok_bind]
      obtain ⟨g, r, e2⟩ := ksIntroLoop_spec hsh wo (n := n) (cap := 8 * d + 2) n 0 (n - 1) d (2 * d : Nat) a []
        (by omega) (by omega) (by omega) (by omega) (by simp only [List.length_nil]; omega)
      have : ((2 * d : Nat) : Int) = 2 * (d : Int) := by push_cast; rfl
      rw [this] at e2
      rw [e2, ksIntroPop]
      obtain ⟨g', e3, r3, _, so⟩ := ksInsertsort_spec lt (n := n) (s := 0) (t := n) (le_refl _) g
      exact ⟨g', e3, (r.mono (le_refl _) (by omega)).trans r3, so wo⟩

/-! ### scanning with the pivot in front -/

theorem ksSmallUp_spec {lt : α → α → Bool} {n z low : Nat} {a : Arr α} (hz : z < n) (hlow : low < n)
    (hs : lt (a z) (a low) = false) :
    ∀ (d i : Nat), z - i ≤ d → i < z → ∃ i', ksSmallUp lt n a low i = .ok i' ∧ i < i' ∧ i' ≤ z ∧
      lt (a i') (a low) = false ∧ ∀ k, i < k → k < i' → lt (a k) (a low) = true := by
  intro d
  induction d with
  | zero => intro i h1 h2; omega
  | succ d ih =>
    intro i hd hi
    rw [ksSmallUp, ltAt_ok (by omega) hlow]
    simp only [Res.ok_bind]
    by_cases hc : lt (a (i + 1)) (a low) = true
    · rw [if_pos hc]
      have : i + 1 ≠ z := by rintro h; rw [h, hs] at hc; exact absurd hc (by decide)
      obtain ⟨i', e, h1, h2, h3, h4⟩ := ih (i + 1) (by omega) (by omega)
      refine ⟨i', e, by omega, h2, h3, fun k k1 k2 => ?_⟩
      rcases Nat.lt_or_ge (i + 1) k with h | h
      · exact h4 k h k2
      · have : k = i + 1 := by omega
        subst this; exact hc
    · rw [if_neg hc]
      exact ⟨i + 1, rfl, by omega, by omega, by simpa using hc, fun k k1 k2 => by omega⟩

theorem ksSmallDown_spec {lt : α → α → Bool} {n z low : Nat} {a : Arr α} (hlow : low < n)
    (hs : lt (a low) (a z) = false) :
    ∀ (j : Nat), z < j → j ≤ n → ∃ j', ksSmallDown lt n a low j = .ok j' ∧ j' < j ∧ z ≤ j' ∧
      lt (a low) (a j') = false ∧ ∀ k, j' < k → k < j → lt (a low) (a k) = true := by
  intro j
  induction j with
  | zero => intro h; omega
  | succ j ih =>
    intro hz hn
    rw [ksSmallDown, if_neg (by omega), Nat.add_sub_cancel, ltAt_ok hlow (by omega)]
    simp only [Res.ok_bind]
    by_cases hc : lt (a low) (a j) = true
    · rw [if_pos hc]
      have : j ≠ z := by rintro h; rw [h, hs] at hc; exact absurd hc (by decide)
      obtain ⟨j', e, h1, h2, h3, h4⟩ := ih (by omega) (by omega)
      refine ⟨j', e, by omega, h2, h3, fun k k1 k2 => ?_⟩
      rcases Nat.lt_or_ge k j with h | h
      · exact h4 k k1 h
      · have : k = j := by omega
        subst this; exact hc
    · rw [if_neg hc]
      exact ⟨j, rfl, by omega, by omega, by simpa using hc, fun k k1 k2 => by omega⟩

/-! ### QSORT -/

theorem qSort3_spec {lt : α → α → Bool} (wo : WeakOrder lt) {n lo hi p q r : Nat} (h1 : lo ≤ p) (h2 : p < q)
    (h3 : q < r) (h4 : r < hi) (h5 : hi ≤ n) (a : Arr α) :
    ∃ g, qSort3 lt n a p q r = .ok g ∧ RIn lo hi a g ∧ lt (g q) (g p) = false ∧ lt (g r) (g q) = false := by
  unfold qSort3
  rw [ltAt_ok (by omega) (by omega)]
  simp only [Res.ok_bind]
  cases c1 : lt (a q) (a p)
  · simp only [Bool.false_eq_true, if_false]
    rw [ltAt_ok (by omega) (by omega)]
    simp only [Res.ok_bind]
    cases c2 : lt (a r) (a q)
    · simp only [Bool.false_eq_true, if_false]
      exact ⟨a, rfl, RIn.refl _ _ _, c1, c2⟩
    · simp only [if_true]
      rw [exch_ok (by omega) (by omega)]
      simp only [Res.ok_bind]
      rw [ltAt_ok (by omega) (by omega), swp_left, swp_ne _ (by omega) (by omega)]
      simp only [Res.ok_bind]
      have rr : RIn lo hi a (swp a q r) := RIn.swp a (by omega) (by omega) (by omega) (by omega)
      cases c3 : lt (a r) (a p)
      · simp only [Bool.false_eq_true, if_false]
        refine ⟨_, rfl, rr, ?_, ?_⟩
        · rw [swp_left, swp_ne _ (by omega) (by omega)]; exact c3
        · rw [swp_left, swp_right]; exact wo.asymm _ _ c2
      · simp only [if_true]
        rw [exch_ok (by omega) (by omega)]
        refine ⟨_, rfl, rr.trans (RIn.swp _ (by omega) (by omega) (by omega) (by omega)), ?_, ?_⟩
        · rw [swp_left, swp_right, swp_left, swp_ne _ (by omega) (by omega)]; exact wo.asymm _ _ c3
        · rw [swp_right, swp_ne _ (by omega) (by omega), swp_right, swp_ne _ (by omega) (by omega)]; exact c1
  · simp only [if_true]
    rw [ltAt_ok (by omega) (by omega)]
    simp only [Res.ok_bind]
    cases c2 : lt (a r) (a q)
    · simp only [Bool.false_eq_true, if_false]
      rw [exch_ok (by omega) (by omega)]
      simp only [Res.ok_bind]
      rw [ltAt_ok (by omega) (by omega), swp_right, swp_ne _ (by omega) (by omega)]
      simp only [Res.ok_bind]
      have rr : RIn lo hi a (swp a p q) := RIn.swp a (by omega) (by omega) (by omega) (by omega)
      cases c3 : lt (a r) (a p)
      · simp only [Bool.false_eq_true, if_false]
        refine ⟨_, rfl, rr, ?_, ?_⟩
        · rw [swp_left, swp_right]; exact wo.asymm _ _ c1
        · rw [swp_right, swp_ne _ (by omega) (by omega)]; exact c3
      · simp only [if_true]
        rw [exch_ok (by omega) (by omega)]
        refine ⟨_, rfl, rr.trans (RIn.swp _ (by omega) (by omega) (by omega) (by omega)), ?_, ?_⟩
        · rw [swp_left, swp_ne _ (by omega) (by omega), swp_ne _ (by omega) (by omega), swp_left]; exact c2
        · rw [swp_left, swp_right, swp_right, swp_ne _ (by omega) (by omega)]; exact wo.asymm _ _ c3
    · simp only [if_true]
      rw [exch_ok (by omega) (by omega)]
      refine ⟨_, rfl, RIn.swp a (by omega) (by omega) (by omega) (by omega), ?_, ?_⟩
      · rw [swp_left, swp_ne _ (by omega) (by omega)]; exact wo.asymm _ _ c2
      · rw [swp_right, swp_ne _ (by omega) (by omega)]; exact wo.asymm _ _ c1

/-- The loop: what is left of the place is not larger than the pivot at `l`, what is right not smaller. -/
theorem qPartLoop_spec {lt : α → α → Bool} (wo : WeakOrder lt) {n l r : Nat} (hr : r < n) :
    ∀ (d i j : Nat) (a : Arr α), j ≤ d → l < i → i < j → j ≤ r →
    (∀ k, l < k → k ≤ i → lt (a l) (a k) = false) → (∀ k, j ≤ k → k ≤ r → lt (a k) (a l) = false) →
    ∃ g p, qPartLoop lt n a l i j = .ok (g, p) ∧ RIn (l + 1) (r + 1) a g ∧ l < p ∧ p < r ∧
      (∀ k, l < k → k ≤ p → lt (g l) (g k) = false) ∧ (∀ k, p < k → k ≤ r → lt (g k) (g l) = false) := by
  intro d
  induction d with
  | zero => intro i j a h1 h2 h3; omega
  | succ d ih =>
    intro i j a hd hi hij hj hlo hhi
    rw [qPartLoop]
    obtain ⟨i', e1, i1, i2, i3, i4⟩ := ksSmallUp_spec (lt := lt) (n := n) (z := j) (low := l) (a := a) (by omega)
      (by omega) (hhi j (le_refl _) hj) (j - i) i (le_refl _) hij
    rw [e1]
    simp only [Res.ok_bind]
    obtain ⟨j', e2, j1, j2, j3, j4⟩ := ksSmallDown_spec (lt := lt) (n := n) (z := i) (low := l) (a := a) (by omega)
      (hlo i hi (le_refl _)) j hij (by omega)
    rw [e2]
    simp only [Res.ok_bind]
    by_cases hc : j' ≤ i'
    · rw [if_pos hc]
      refine ⟨a, j', rfl, RIn.refl _ _ _, by omega, by omega, fun k k1 k2 => ?_, fun k k1 k2 => ?_⟩
      · rcases Nat.lt_or_ge i k with h | h
        · rcases Nat.lt_or_ge k i' with h' | h'
          · exact wo.asymm _ _ (i4 k h h')
          · have : k = j' := by omega
            subst this; exact j3
        · exact hlo k k1 h
      · rcases Nat.lt_or_ge k j with h | h
        · exact wo.asymm _ _ (j4 k k1 h)
        · exact hhi k h k2
    · rw [if_neg hc, exch_ok (by omega) (by omega)]
      simp only [Res.ok_bind]
      have hl : swp a i' j' l = a l := swp_ne _ (by omega) (by omega)
      obtain ⟨g, p, e3, r3, p1, p2, p3, p4⟩ := ih i' j' (swp a i' j') (by omega) (by omega) (by omega) (by omega)
        (by
          intro k k1 k2
          rw [hl]
          rcases Nat.lt_or_ge k i' with h | h
          · rw [swp_ne _ (by omega) (by omega)]
            rcases Nat.lt_or_ge i k with h' | h'
            · exact wo.asymm _ _ (i4 k h' h)
            · exact hlo k k1 h'
          · have : k = i' := by omega
            subst this; rw [swp_left]; exact j3)
        (by
          intro k k1 k2
          rw [hl]
          rcases Nat.lt_or_ge j' k with h | h
          · rw [swp_ne _ (by omega) (by omega)]
            rcases Nat.lt_or_ge k j with h' | h'
            · exact wo.asymm _ _ (j4 k h h')
            · exact hhi k h' k2
          · have : k = j' := by omega
            subst this; rw [swp_right]; exact i3)
      exact ⟨g, p, e3, (RIn.swp a (by omega) (by omega) (by omega) (by omega)).trans r3, p1, p2, p3, p4⟩

/-- After the partition the pivot is at `p`, nothing larger is left of it and nothing smaller right. -/
def Pivoted (lt : α → α → Bool) (l p r : Nat) (g : Arr α) : Prop :=
  (∀ k, l ≤ k → k < p → lt (g p) (g k) = false) ∧ (∀ k, p < k → k ≤ r → lt (g k) (g p) = false)

theorem qPartition_spec {lt : α → α → Bool} (wo : WeakOrder lt) {n l r : Nat} (hr : r < n) (hlr : l + 4 ≤ r)
    (a : Arr α) :
    ∃ g p, qPartition lt n a l r = .ok (g, p) ∧ RIn l (r + 1) a g ∧ l < p ∧ p < r ∧ Pivoted lt l p r g := by
  unfold qPartition
  obtain ⟨b, e1, r1, b1, b2⟩ := qSort3_spec wo (n := n) (lo := l) (hi := r + 1) (p := l + 1) (q := l + (r - l) / 2) (r := r)
    (by omega) (by omega) (by omega) (by omega) (by omega) a
  rw [e1]
  simp only [Res.ok_bind]
  rw [exch_ok (by omega) (by omega)]
  simp only [Res.ok_bind]
  have hbl : swp b l (l + (r - l) / 2) l = b (l + (r - l) / 2) := swp_left _ _ _
  obtain ⟨g, p, e2, r2, p1, p2, p3, p4⟩ := qPartLoop_spec wo (l := l) hr r (l + 1) r (swp b l (l + (r - l) / 2)) (le_refl _)
    (by omega) (by omega) (le_refl _)
    (by
      intro k k1 k2
      have : k = l + 1 := by omega
      subst this
      rw [hbl, swp_ne _ (by omega) (by omega)]; exact b1)
    (by
      intro k k1 k2
      have : k = r := by omega
      subst this
      rw [hbl, swp_ne _ (by omega) (by omega)]; exact b2)
  rw [e2]
  simp only [Res.ok_bind]
  rw [exch_ok (by omega) (by omega)]
  refine ⟨_, p, rfl, ?_, p1, p2, ?_, ?_⟩
  · exact ((r1.trans (RIn.swp b (by omega) (by omega) (by omega) (by omega))).trans
      (r2.mono (by omega) (le_refl _))).trans (RIn.swp g (by omega) (by omega) (by omega) (by omega))
  · intro k k1 k2
    rw [swp_right]
    rcases Nat.lt_or_ge l k with h | h
    · rw [swp_ne _ (by omega) (by omega)]; exact p3 k h (by omega)
    · have : k = l := by omega
      subst this; rw [swp_left]; exact p3 p p1 (le_refl _)
  · intro k k1 k2
    rw [swp_right, swp_ne _ (by omega) (by omega)]; exact p4 k k1 k2

/-- Sorting both sides of a pivot sorts the whole. -/
theorem SortedIn.pivot {lt : α → α → Bool} (wo : WeakOrder lt) {l p r : Nat} {g : Arr α} (h1 : l ≤ p) (h2 : p ≤ r)
    (hp : Pivoted lt l p r g) (hl : SortedIn lt l p g) (hr : SortedIn lt (p + 1) (r + 1) g) :
    SortedIn lt l (r + 1) g := by
  intro i j i1 ij jr
  rcases Nat.lt_trichotomy i p with h | h | h
  · rcases Nat.lt_trichotomy j p with h' | h' | h'
    · exact hl i j i1 ij h'
    · subst h'; exact hp.1 i i1 h
    · exact wo.negtrans _ _ _ (hp.2 j h' (by omega)) (hp.1 i i1 h)
  · subst h; exact hp.2 j ij (by omega)
  · exact hr i j (by omega) ij jr

theorem Pivoted.left {lt : α → α → Bool} {l p r : Nat} {g g' : Arr α} (hp : Pivoted lt l p r g)
    (h : RIn l p g g') : Pivoted lt l p r g' := by
  refine ⟨fun k k1 k2 => ?_, fun k k1 k2 => ?_⟩
  · rw [h.out (i := p) (by omega)]
    exact h.all (P := fun x => lt (g p) x = false) hp.1 k k1 k2
  · rw [h.out (i := p) (by omega), h.out (i := k) (by omega)]; exact hp.2 k k1 k2

theorem Pivoted.right {lt : α → α → Bool} {l p r : Nat} {g g' : Arr α} (hp : Pivoted lt l p r g)
    (h : RIn (p + 1) (r + 1) g g') : Pivoted lt l p r g' := by
  refine ⟨fun k k1 k2 => ?_, fun k k1 k2 => ?_⟩
  · rw [h.out (i := p) (by omega), h.out (i := k) (by omega)]; exact hp.1 k k1 k2
  · rw [h.out (i := p) (by omega)]
    exact h.all (P := fun x => lt x (g p) = false) (fun i i1 i2 => hp.2 i (by omega) (by omega)) k (by omega) (by omega)

theorem SortedIn.keep {lt : α → α → Bool} {l r l' r' : Nat} {g g' : Arr α} (h : SortedIn lt l r g)
    (hr : RIn l' r' g g') (hd : r ≤ l' ∨ r' ≤ l) : SortedIn lt l r g' := by
  intro i j i1 ij jr
  rw [hr.out (i := i) (by omega), hr.out (i := j) (by omega)]
  exact h i j i1 ij jr

/-- What QSORT does when a range is done. -/
def qPop (lt : α → α → Bool) (n cap : Nat) (a : Arr α) : List (Nat × Nat) → Res (Arr α)
  | [] => .ok a
  | f :: st => qLoop lt n cap a f.1 f.2 st

theorem qLoop_spec {lt : α → α → Bool} (wo : WeakOrder lt) {n cap : Nat} : ∀ (D l r K : Nat) (a : Arr α)
    (st : List (Nat × Nat)), r - l ≤ D → r < n → l ≤ r → r - l + 1 ≤ 2 ^ K → st.length + K ≤ cap →
    ∃ g, RIn l (r + 1) a g ∧ SortedIn lt l (r + 1) g ∧ qLoop lt n cap a l r st = qPop lt n cap g st := by
  have hsmall : ∀ (l r : Nat) (a : Arr α) (st : List (Nat × Nat)), r < n → l ≤ r → ¬ 16 ≤ r - l + 1 →
      ∃ g, RIn l (r + 1) a g ∧ SortedIn lt l (r + 1) g ∧ qLoop lt n cap a l r st = qPop lt n cap g st := by
    intro l r a st hr hlr hc
    obtain ⟨g, e, rr, _, so⟩ := ksInsertLoop_spec lt (n := n) (s := l) (t := r + 1) (by omega) (r + 1) (l + 1) a
      (by omega) (by omega)
    refine ⟨g, rr, so wo (fun i j h1 h2 h3 => by omega), ?_⟩
    rw [qLoop, if_neg hc, e]
    simp only [Res.ok_bind]
    cases st <;> rfl
  intro D
  induction D with
  | zero =>
    intro l r K a st hD hr hlr hK hcap
    exact hsmall l r a st hr hlr (by omega)
  | succ D ih =>
    intro l r K a st hD hr hlr hK hcap
    by_cases hc : 16 ≤ r - l + 1
    · have hK1 : 1 ≤ K := by
        rcases Nat.eq_zero_or_pos K with h | h
        · subst h; omega
        · exact h
      obtain ⟨K', rfl⟩ : ∃ K', K = K' + 1 := ⟨K - 1, by omega⟩
      have hpow : 2 ^ (K' + 1) = 2 * 2 ^ K' := by ring
      obtain ⟨b, p, e, rb, p1, p2, pv⟩ := qPartition_spec wo (n := n) hr (by omega : l + 4 ≤ r) a
      rw [qLoop, if_pos hc, e]
      simp only [Res.ok_bind]
      rw [if_pos ⟨p1, p2⟩]
      by_cases hs : r - (p + 1) ≤ p - 1 - l
      · rw [if_pos hs, qSubfiles]
        by_cases h1 : p + 1 = r
        · -- the right one is a single element
          rw [if_pos h1]
          simp only [Res.ok_bind, Res.pure_eq]
          obtain ⟨g, rg, sg, eg⟩ := ih l (p - 1) (K' + 1) b st (by omega) (by omega) (by omega) (by omega) hcap
          rw [show p - 1 + 1 = p by omega] at rg sg
          refine ⟨g, rb.trans (rg.mono (le_refl _) (by omega)), ?_, eg⟩
          exact SortedIn.pivot wo (by omega) (by omega) (pv.left rg) sg (fun i j h1 h2 h3 => by omega)
        · rw [if_neg h1, if_pos (by omega)]
          simp only [Res.ok_bind, Res.pure_eq]
          obtain ⟨g1, rg1, sg1, eg1⟩ := ih (p + 1) r K' b ((l, p - 1) :: st) (by omega) (by omega) (by omega)
            (by omega) (by simp only [List.length_cons]; omega)
          obtain ⟨g, rg, sg, eg⟩ := ih l (p - 1) (K' + 1) g1 st (by omega) (by omega) (by omega) (by omega) hcap
          rw [show p - 1 + 1 = p by omega] at rg sg
          refine ⟨g, (rb.trans (rg1.mono (by omega) (le_refl _))).trans (rg.mono (le_refl _) (by omega)), ?_, ?_⟩
          · exact SortedIn.pivot wo (by omega) (by omega) ((pv.right rg1).left rg) sg (sg1.keep rg (.inr (by omega)))
          · rw [eg1, qPop]; exact eg
      · rw [if_neg hs, qSubfiles]
        by_cases h1 : l = p - 1
        · rw [if_pos h1]
          simp only [Res.ok_bind, Res.pure_eq]
          obtain ⟨g, rg, sg, eg⟩ := ih (p + 1) r (K' + 1) b st (by omega) (by omega) (by omega) (by omega) hcap
          refine ⟨g, rb.trans (rg.mono (by omega) (le_refl _)), ?_, eg⟩
          exact SortedIn.pivot wo (by omega) (by omega) (pv.right rg) (fun i j h1 h2 h3 => by omega) sg
        · rw [if_neg h1, if_pos (by omega)]
          simp only [Res.ok_bind, Res.pure_eq]
          obtain ⟨g1, rg1, sg1, eg1⟩ := ih l (p - 1) K' b ((p + 1, r) :: st) (by omega) (by omega) (by omega)
            (by omega) (by simp only [List.length_cons]; omega)
          obtain ⟨g, rg, sg, eg⟩ := ih (p + 1) r (K' + 1) g1 st (by omega) (by omega) (by omega) (by omega) hcap
          rw [show p - 1 + 1 = p by omega] at rg1 sg1
          refine ⟨g, (rb.trans (rg1.mono (le_refl _) (by omega))).trans (rg.mono (by omega) (le_refl _)), ?_, ?_⟩
          · exact SortedIn.pivot wo (by omega) (by omega) ((pv.left rg1).right rg) (sg1.keep rg (.inl (by omega))) sg
          · rw [eg1, qPop]; exact eg
    · exact hsmall l r a st hr hlr hc

theorem qSort_spec {lt : α → α → Bool} (wo : WeakOrder lt) (wide : Bool) {n : Nat}
    (hn : n ≤ 2 ^ (if wide then 48 else 32)) (a : Arr α) :
    ∃ g, qSort lt wide n a = .ok g ∧ RIn 0 n a g ∧ SortedIn lt 0 n g := by
  unfold qSort
  by_cases h : 1 < n
  · rw [if_pos h]
    obtain ⟨g, r, s, e⟩ := qLoop_spec wo (n := n) (cap := if wide then 48 else 32) n 0 (n - 1)
      (if wide then 48 else 32) a [] (by omega) (by omega) (by omega) (by omega) (by simp)
    rw [show n - 1 + 1 = n by omega] at r s
    exact ⟨g, e, r, s⟩
  · rw [if_neg h]
    exact ⟨a, rfl, RIn.refl _ _ _, fun i j h1 h2 h3 => by omega⟩

/-! ### ks_ksmall -/

theorem ksSmallPart_spec {lt : α → α → Bool} (wo : WeakOrder lt) {n low high : Nat} (hh : high < n) :
    ∀ (d ll hh : Nat) (a : Arr α), hh ≤ d → low < ll → ll ≤ hh → hh ≤ high → (ll < hh ∨ (hh < high ∧ low + 2 ≤ ll)) →
    (∀ k, low < k → k ≤ ll → lt (a low) (a k) = false) → (∀ k, hh ≤ k → k ≤ high → lt (a k) (a low) = false) →
    ∃ g ll' hh', ksSmallPart lt n a low ll hh = .ok (g, ll', hh') ∧ RIn (low + 1) (high + 1) a g ∧
      low < hh' ∧ hh' < ll' ∧ ll' ≤ high ∧
      (∀ k, low < k → k < ll' → lt (g low) (g k) = false) ∧ (∀ k, hh' < k → k ≤ high → lt (g k) (g low) = false) := by
  intro d
  induction d with
  | zero => intro ll hh a h1 h2 h3; omega
  | succ d ih =>
    intro i j a hd hi hij hj hx hlo hhi
    rw [ksSmallPart]
    -- the two places that stop the scans
    obtain ⟨z, z1, z2, z3, z4⟩ : ∃ z, i < z ∧ z ≤ high ∧ lt (a z) (a low) = false ∧ (z = j ∨ (i = j ∧ z = i + 1)) := by
      rcases Nat.lt_or_ge i j with h | h
      · exact ⟨j, h, hj, hhi j (le_refl _) hj, .inl rfl⟩
      · exact ⟨i + 1, by omega, by omega, hhi _ (by omega) (by omega), .inr ⟨by omega, rfl⟩⟩
    obtain ⟨y, y1, y2, y3⟩ : ∃ y, low < y ∧ y < j ∧ lt (a low) (a y) = false := by
      rcases Nat.lt_or_ge i j with h | h
      · exact ⟨i, hi, h, hlo i hi (le_refl _)⟩
      · exact ⟨j - 1, by omega, by omega, hlo _ (by omega) (by omega)⟩
    obtain ⟨i', e1, i1, i2, i3, i4⟩ := ksSmallUp_spec (lt := lt) (n := n) (z := z) (low := low) (a := a) (by omega)
      (by omega) z3 (z - i) i (le_refl _) z1
    rw [e1]
    simp only [Res.ok_bind]
    obtain ⟨j', e2, j1, j2, j3, j4⟩ := ksSmallDown_spec (lt := lt) (n := n) (z := y) (low := low) (a := a) (by omega)
      y3 j y2 (by omega)
    rw [e2]
    simp only [Res.ok_bind]
    have hloi : ∀ k, low < k → k < i' → lt (a low) (a k) = false := by
      intro k k1 k2
      rcases Nat.lt_or_ge i k with h | h
      · exact wo.asymm _ _ (i4 k h k2)
      · exact hlo k k1 h
    have hhij : ∀ k, j' < k → k ≤ high → lt (a k) (a low) = false := by
      intro k k1 k2
      rcases Nat.lt_or_ge k j with h | h
      · exact wo.asymm _ _ (j4 k k1 h)
      · exact hhi k h k2
    by_cases hc : j' < i'
    · rw [if_pos hc]
      exact ⟨a, i', j', rfl, RIn.refl _ _ _, by omega, hc, by omega, hloi, hhij⟩
    · rw [if_neg hc, exch_ok (by omega) (by omega)]
      simp only [Res.ok_bind]
      have hl : swp a i' j' low = a low := swp_ne _ (by omega) (by omega)
      obtain ⟨g, ll', hh', e3, r3, p1, p2, p3, p4, p5⟩ := ih i' j' (swp a i' j') (by omega) (by omega) (by omega) (by omega)
        (by omega)
        (by
          intro k k1 k2
          rw [hl]
          rcases Nat.lt_or_ge k i' with h | h
          · rw [swp_ne _ (by omega) (by omega)]; exact hloi k k1 h
          · have : k = i' := by omega
            subst this; rw [swp_left]; exact j3)
        (by
          intro k k1 k2
          rw [hl]
          rcases Nat.lt_or_ge j' k with h | h
          · rw [swp_ne _ (by omega) (by omega)]; exact hhij k h k2
          · have : k = j' := by omega
            subst this; rw [swp_right]; exact i3)
      exact ⟨g, ll', hh', e3, (RIn.swp a (by omega) (by omega) (by omega) (by omega)).trans r3, p1, p2, p3, p4, p5⟩

theorem ksOrder_spec {lt : α → α → Bool} (wo : WeakOrder lt) {n lo hi i j : Nat} (hi1 : lo ≤ i) (hi2 : i < hi)
    (hj1 : lo ≤ j) (hj2 : j < hi) (hn : hi ≤ n) (hij : i ≠ j) (a : Arr α) :
    ∃ g, ksOrder lt n a i j = .ok g ∧ RIn lo hi a g ∧ lt (g i) (g j) = false ∧
      (lt (a i) (a j) = true ∧ g = swp a i j ∨ lt (a i) (a j) = false ∧ g = a) := by
  unfold ksOrder
  rw [ltAt_ok (by omega) (by omega)]
  simp only [Res.ok_bind]
  cases hc : lt (a i) (a j)
  · simp only [Bool.false_eq_true, if_false]
    exact ⟨a, rfl, RIn.refl _ _ _, hc, .inr (by simp)⟩
  · simp only [if_true]
    rw [exch_ok (by omega) (by omega)]
    refine ⟨_, rfl, RIn.swp a (by omega) (by omega) (by omega) (by omega), ?_, .inl (by simp)⟩
    rw [swp_left, swp_right]; exact wo.asymm _ _ hc

/-- One round: around place `hh'` the pivot, and up to `ll'` nothing larger than it. -/
theorem ksSmallRound {lt : α → α → Bool} (wo : WeakOrder lt) {n low high : Nat} (hh : high < n) (hlh : low + 2 ≤ high)
    (a : Arr α) :
    ∃ g ll' hh', (do
        let a ← ksOrder lt n a high (low + (high - low) / 2)
        let a ← ksOrder lt n a high low
        let a ← ksOrder lt n a low (low + (high - low) / 2)
        let a ← exch n a (low + (high - low) / 2) (low + 1)
        let r ← ksSmallPart lt n a low (low + 1) high
        let a ← exch n r.1 low r.2.2
        pure (a, r.2.1, r.2.2)) = (.ok (g, ll', hh') : Res (Arr α × Nat × Nat)) ∧
      RIn low (high + 1) a g ∧ low < hh' ∧ hh' < ll' ∧ ll' ≤ high ∧
      (∀ k, low ≤ k → k < ll' → lt (g hh') (g k) = false) ∧ (∀ k, hh' < k → k ≤ high → lt (g k) (g hh') = false) := by
  obtain ⟨m, hm⟩ : ∃ m, m = low + (high - low) / 2 := ⟨_, rfl⟩
  rw [← hm]
  have m1 : low < m := by omega
  have m2 : m < high := by omega
  obtain ⟨a1, e1, r1, o1, c1⟩ := ksOrder_spec wo (n := n) (lo := low) (hi := high + 1) (i := high) (j := m) (by omega) (by omega)
    (by omega) (by omega) (by omega) (by omega) a
  rw [e1]
  simp only [Res.ok_bind]
  obtain ⟨a2, e2, r2, o2, c2⟩ := ksOrder_spec wo (n := n) (lo := low) (hi := high + 1) (i := high) (j := low) (by omega) (by omega)
    (by omega) (by omega) (by omega) (by omega) a1
  rw [e2]
  simp only [Res.ok_bind]
  obtain ⟨a3, e3, r3, o3, c3⟩ := ksOrder_spec wo (n := n) (lo := low) (hi := high + 1) (i := low) (j := m) (by omega) (by omega)
    (by omega) (by omega) (by omega) (by omega) a2
  rw [e3]
  simp only [Res.ok_bind]
  rw [exch_ok (by omega) (by omega)]
  simp only [Res.ok_bind]
  -- middle is not larger than the last after the second step
  have o12 : lt (a2 high) (a2 m) = false := by
    rcases c2 with ⟨h, rfl⟩ | ⟨_, rfl⟩
    · rw [swp_left, swp_ne _ (by omega) (by omega)]
      exact wo.negtrans _ _ _ (wo.asymm _ _ h) o1
    · exact o1
  have hhl : lt (a3 high) (a3 low) = false := by
    rcases c3 with ⟨_, rfl⟩ | ⟨_, rfl⟩
    · rw [swp_left, swp_ne _ (by omega) (by omega)]; exact o12
    · exact o2
  have r123 := (r1.trans r2).trans r3
  have hlow : swp a3 m (low + 1) low = a3 low := swp_ne _ (by omega) (by omega)
  obtain ⟨g, ll', hh', e4, r4, p1, p2, p3, p4, p5⟩ := ksSmallPart_spec wo (low := low) hh high (low + 1) high (swp a3 m (low + 1))
    (le_refl _) (by omega) (by omega) (le_refl _) (.inl (by omega))
    (by
      intro k k1 k2
      have : k = low + 1 := by omega
      subst this
      rw [hlow, swp_right]; exact o3)
    (by
      intro k k1 k2
      have : k = high := by omega
      subst this
      rw [hlow, swp_ne _ (by omega) (by omega)]; exact hhl)
  rw [e4]
  simp only [Res.ok_bind]
  rw [exch_ok (by omega) (by omega)]
  refine ⟨_, ll', hh', rfl, ?_, p1, p2, p3, ?_, ?_⟩
  · exact ((r123.trans (RIn.swp a3 (by omega) (by omega) (by omega) (by omega))).trans
      (r4.mono (by omega) (le_refl _))).trans (RIn.swp g (by omega) (by omega) (by omega) (by omega))
  · intro k k1 k2
    rw [swp_right]
    rcases Nat.lt_or_ge low k with h | h
    · by_cases hk : k = hh'
      · subst hk; rw [swp_right]; exact wo.irrefl _
      · rw [swp_ne _ (by omega) hk]; exact p4 k h k2
    · have : k = low := by omega
      subst this; rw [swp_left]; exact p4 hh' p1 (by omega)
  · intro k k1 k2
    rw [swp_right, swp_ne _ (by omega) (by omega)]; exact p5 k k1 k2

theorem _root_.Spec.AtPlace.keep {lt : α → α → Bool} {n k lo hi : Nat} {a g : Arr α} (h : AtPlace lt n k a)
    (hr : RIn lo hi a g) (hhi : hi ≤ n) (hk : k < lo ∨ hi ≤ k) : AtPlace lt n k g := by
  refine ⟨fun x hx => ?_, fun y hy hyn => ?_⟩
  · rw [hr.out hk]
    by_cases hc : lo ≤ x ∧ x < hi
    · refine hr.all (P := fun v => lt (a k) v = false) (fun i i1 i2 => h.1 i (by omega)) x hc.1 hc.2
    · rw [hr.out (i := x) (by omega)]; exact h.1 x hx
  · rw [hr.out hk]
    by_cases hc : lo ≤ y ∧ y < hi
    · refine hr.all (P := fun v => lt v (a k) = false) (fun i i1 i2 => h.2 i (by omega) (by omega)) y hc.1 hc.2
    · rw [hr.out (i := y) (by omega)]; exact h.2 y hy hyn

/-- What the loop keeps: either `k` is done, or it lies between `low` and `high` and the elements
outside are on their side. -/
def SmallInv (lt : α → α → Bool) (n k low high : Nat) (a : Arr α) : Prop :=
  (AtPlace lt n k a ∧ (k < low ∨ high < k)) ∨
  (low ≤ k ∧ k ≤ high ∧ (∀ x y, x < low → low ≤ y → y < n → lt (a y) (a x) = false) ∧
    (∀ x y, x ≤ high → high < y → y < n → lt (a y) (a x) = false))

theorem ksSmallLoop_spec {lt : α → α → Bool} (wo : WeakOrder lt) {n k : Nat} (hk : k < n) :
    ∀ (d low high : Nat) (a : Arr α), high - low ≤ d → high < n → SmallInv lt n k low high a →
    ∃ g, ksSmallLoop lt n k a low high = .ok (g, g k) ∧ RIn 0 n a g ∧ AtPlace lt n k g := by
  have hbase : ∀ (low high : Nat) (a : Arr α), high ≤ low → high < n → SmallInv lt n k low high a →
      ∃ g, ksSmallLoop lt n k a low high = .ok (g, g k) ∧ RIn 0 n a g ∧ AtPlace lt n k g := by
    intro low high a hc hh hinv
    rw [ksSmallLoop, if_pos hc, rd_ok hk]
    refine ⟨a, rfl, RIn.refl _ _ _, ?_⟩
    rcases hinv with ⟨h, _⟩ | ⟨h1, h2, h3, h4⟩
    · exact h
    · exact ⟨fun x hx => h3 x k (by omega) h1 hk, fun y hy hyn => h4 k y h2 (by omega) hyn⟩
  intro d
  induction d with
  | zero => intro low high a hd hh hinv; exact hbase low high a (by omega) hh hinv
  | succ d ih =>
    intro low high a hd hh hinv
    by_cases hc : high ≤ low
    · exact hbase low high a hc hh hinv
    · rw [ksSmallLoop, if_neg hc]
      by_cases h1 : high = low + 1
      · rw [if_pos h1]
        obtain ⟨g, e, r, o, _⟩ := ksOrder_spec wo (n := n) (lo := low) (hi := high + 1) (i := high) (j := low) (by omega)
          (by omega) (by omega) (by omega) (by omega) (by omega) a
        rw [e]
        simp only [Res.ok_bind]
        rw [rd_ok hk]
        refine ⟨g, rfl, r.mono (by omega) (by omega), ?_⟩
        rcases hinv with ⟨h, hk2⟩ | ⟨k1, k2, k3, k4⟩
        · exact h.keep r (by omega) (by omega)
        · have hl : ∀ x y, x < low → low ≤ y → y < n → lt (g y) (g x) = false := by
            intro x y hx hy hyn
            rw [r.out (i := x) (by omega)]
            by_cases hyh : y < high + 1
            · exact r.all (P := fun v => lt v (a x) = false) (fun i i1 i2 => k3 x i hx (by omega) (by omega)) y hy hyh
            · rw [r.out (i := y) (by omega)]; exact k3 x y hx hy hyn
          have hh' : ∀ x y, x ≤ high → high < y → y < n → lt (g y) (g x) = false := by
            intro x y hx hy hyn
            rw [r.out (i := y) (by omega)]
            by_cases hxl : low ≤ x
            · exact r.all (P := fun v => lt (a y) v = false) (fun i i1 i2 => k4 i y (by omega) hy hyn) x hxl (by omega)
            · rw [r.out (i := x) (by omega)]; exact k4 x y hx hy hyn
          refine ⟨fun x hx => ?_, fun y hy hyn => ?_⟩
          · by_cases hxl : x < low
            · exact hl x k hxl k1 hk
            · have e1 : x = low := by omega
              have e2 : k = high := by omega
              rw [e1, e2]; exact o
          · by_cases hyh : high < y
            · exact hh' k y k2 hyh hyn
            · have e1 : y = high := by omega
              have e2 : k = low := by omega
              rw [e1, e2]; exact o
      · rw [if_neg h1]
        obtain ⟨g, ll', hh', e, r, p1, p2, p3, p4, p5⟩ := ksSmallRound wo hh (by omega : low + 2 ≤ high) a
        -- the rounds before the next turn of the loop
        have hstep : ∀ (F : Arr α → Nat → Nat → Res (Arr α × α)),
            (do
              let a ← ksOrder lt n a high (low + (high - low) / 2)
              let a ← ksOrder lt n a high low
              let a ← ksOrder lt n a low (low + (high - low) / 2)
              let a ← exch n a (low + (high - low) / 2) (low + 1)
              let r ← ksSmallPart lt n a low (low + 1) high
              let a ← exch n r.1 low r.2.2
              F a r.2.1 r.2.2) = F g ll' hh' := by
          intro F
          have := congrArg (fun z => z >>= fun (t : Arr α × Nat × Nat) => F t.1 t.2.1 t.2.2) e
          simpa only [bind_assoc, Res.pure_eq, Res.ok_bind] using this
        rw [hstep (fun a x y => ksSmallLoop lt n k a (if y ≤ k then x else low) (if k ≤ y then y - 1 else high))]
        have hrr : RIn 0 n a g := r.mono (by omega) (by omega)
        have hgo : SmallInv lt n k (if hh' ≤ k then ll' else low) (if k ≤ hh' then hh' - 1 else high) g := by
          rcases hinv with ⟨h, hk2⟩ | ⟨k1, k2, k3, k4⟩
          · left
            refine ⟨h.keep r (by omega) (by omega), ?_⟩
            rcases hk2 with h3 | h3
            · left; split <;> omega
            · right; split <;> omega
          · have hl : ∀ x y, x < low → low ≤ y → y < n → lt (g y) (g x) = false := by
              intro x y hx hy hyn
              rw [r.out (i := x) (by omega)]
              by_cases hyh : y < high + 1
              · exact r.all (P := fun v => lt v (a x) = false) (fun i i1 i2 => k3 x i hx (by omega) (by omega)) y hy hyh
              · rw [r.out (i := y) (by omega)]; exact k3 x y hx hy hyn
            have hu : ∀ x y, x ≤ high → high < y → y < n → lt (g y) (g x) = false := by
              intro x y hx hy hyn
              rw [r.out (i := y) (by omega)]
              by_cases hxl : low ≤ x
              · exact r.all (P := fun v => lt (a y) v = false) (fun i i1 i2 => k4 i y (by omega) hy hyn) x hxl (by omega)
              · rw [r.out (i := x) (by omega)]; exact k4 x y hx hy hyn
            -- left of `ll'` nothing is larger, right of `hh'` nothing smaller than anything left of `ll'`
            have hcross : ∀ x y, x < ll' → hh' < y → y < n → x ≤ high → lt (g y) (g x) = false := by
              intro x y hx hy hyn hxh
              by_cases hxl : x < low
              · exact hl x y hxl (by omega) hyn
              · by_cases hyh : high < y
                · exact hu x y hxh hyh hyn
                · exact wo.negtrans _ _ _ (p5 y hy (by omega)) (p4 x (by omega) hx)
            by_cases c1 : hh' ≤ k
            · rw [if_pos c1]
              by_cases c2 : k < ll'
              · left
                refine ⟨⟨fun x hx => ?_, fun y hy hyn => ?_⟩, .inl c2⟩
                · by_cases hxl : x < low
                  · exact hl x k hxl (by omega) hk
                  · rcases Nat.lt_or_ge hh' k with h | h
                    · exact hcross x k (by omega) h hk (by omega)
                    · have : k = hh' := by omega
                      rw [this]; exact p4 x (by omega) (by omega)
                · exact hcross k y c2 (by omega) hyn k2
              · right
                rw [if_neg (by omega)]
                refine ⟨by omega, k2, fun x y hx hy hyn => hcross x y hx (by omega) hyn (by omega), hu⟩
            · rw [if_neg c1, if_pos (by omega)]
              right
              refine ⟨k1, by omega, hl, fun x y hx hy hyn => ?_⟩
              rcases Nat.lt_or_ge hh' y with h | h
              · exact hcross x y (by omega) h hyn (by omega)
              · have : y = hh' := by omega
                rw [this]
                by_cases hxl : x < low
                · exact hl x hh' hxl (by omega) (by omega)
                · exact p4 x (by omega) (by omega)
        obtain ⟨g', e', r', h'⟩ := ih (if hh' ≤ k then ll' else low) (if k ≤ hh' then hh' - 1 else high) g
          (by split <;> split <;> omega) (by split <;> omega) hgo
        exact ⟨g', e', hrr.trans r', h'⟩

end Minilib

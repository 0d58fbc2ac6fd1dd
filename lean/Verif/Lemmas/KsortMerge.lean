import Verif.Lemmas.Ksort
/-
Lemmas about the merge sort template.
-/

set_option autoImplicit false

namespace Minilib
open Spec

variable {α : Type}

/-! ### segments -/

/-- The elements from `i` up to `j`. -/
def seg (a : Arr α) (i j : Nat) : List α := (List.range' i (j - i)).map a

theorem seg_length (a : Arr α) (i j : Nat) : (seg a i j).length = j - i := by simp [seg]

theorem seg_nil {a : Arr α} {i j : Nat} (h : j ≤ i) : seg a i j = [] := by
  simp [seg, Nat.sub_eq_zero_of_le h]

theorem seg_cons {a : Arr α} {i j : Nat} (h : i < j) : seg a i j = a i :: seg a (i + 1) j := by
  unfold seg
  obtain ⟨d, hd⟩ : ∃ d, j - i = d + 1 := ⟨j - i - 1, by omega⟩
  rw [hd, List.range'_succ, List.map_cons]
  congr 3
  omega

theorem seg_append {a : Arr α} {i j k : Nat} (h1 : i ≤ j) (h2 : j ≤ k) : seg a i j ++ seg a j k = seg a i k := by
  unfold seg
  rw [← List.map_append]
  have h := @List.range'_append_1 i (j - i) (k - j)
  have e1 : i + (j - i) = j := by omega
  have e2 : j - i + (k - j) = k - i := by omega
  rw [e1, e2] at h
  rw [h]

theorem ks_seg_congr {a b : Arr α} {i j : Nat} (h : ∀ k, i ≤ k → k < j → a k = b k) : seg a i j = seg b i j := by
  unfold seg
  apply List.map_congr_left
  intro k hk
  simp only [List.mem_range'_1] at hk
  exact h k hk.1 (by omega)

theorem elems_eq_seg (n : Nat) (a : Arr α) : elems n a = seg a 0 n := by
  simp [elems, seg, List.range_eq_range']

/-- `b` with a list written from `p` on. -/
def putL (b : Arr α) (p : Nat) : List α → Arr α
  | [] => b
  | x :: l => putL (Function.update b p x) (p + 1) l

theorem putL_below {l : List α} : ∀ {b : Arr α} {p i : Nat}, i < p → putL b p l i = b i := by
  induction l with
  | nil => intro b p i _; rfl
  | cons x l ih =>
    intro b p i h
    rw [putL, ih (by omega), Function.update_of_ne (by omega)]

theorem putL_above {l : List α} : ∀ {b : Arr α} {p i : Nat}, p + l.length ≤ i → putL b p l i = b i := by
  induction l with
  | nil => intro b p i _; rfl
  | cons x l ih =>
    intro b p i h
    simp only [List.length_cons] at h
    rw [putL, ih (by omega), Function.update_of_ne (by omega)]

theorem seg_putL {l : List α} : ∀ {b : Arr α} {p : Nat}, seg (putL b p l) p (p + l.length) = l := by
  induction l with
  | nil => intro b p; exact seg_nil (by simp)
  | cons x l ih =>
    intro b p
    rw [seg_cons (by simp), putL, putL_below (by omega), Function.update_self]
    have := @ih (Function.update b p x) (p + 1)
    rw [List.length_cons, show p + (l.length + 1) = p + 1 + l.length by omega, this]

theorem putL_append {l1 l2 : List α} : ∀ {b : Arr α} {p : Nat},
    putL b p (l1 ++ l2) = putL (putL b p l1) (p + l1.length) l2 := by
  induction l1 with
  | nil => intro b p; simp [putL]
  | cons x l ih =>
    intro b p
    rw [List.cons_append, putL, putL, ih, List.length_cons, show p + (l.length + 1) = p + 1 + l.length by omega]

/-! ### the loops -/

theorem ksCopy_spec {n ej : Nat} {a : Arr α} (he : ej ≤ n) : ∀ (d j p : Nat) (b : Arr α), ej - j ≤ d →
    p + (ej - j) ≤ n → ksCopy n a b j ej p = .ok (putL b p (seg a j ej), p + (ej - j)) := by
  intro d
  induction d with
  | zero =>
    intro j p b hd hp
    rw [ksCopy, if_neg (by omega), seg_nil (by omega), show ej - j = 0 by omega]
    rfl
  | succ d ih =>
    intro j p b hd hp
    rw [ksCopy]
    by_cases hj : j < ej
    · rw [if_pos hj, rd_ok (by omega)]
      simp only [Res.ok_bind]
      rw [wr_ok (by omega)]
      simp only [Res.ok_bind]
      rw [ih (j + 1) (p + 1) _ (by omega) (by omega), seg_cons hj, putL]
      congr 2; omega
    · rw [if_neg hj, seg_nil (by omega), show ej - j = 0 by omega]
      rfl

/-- The order of the library's merge: the left one first unless the right one precedes it. -/
def leOf (lt : α → α → Bool) (x y : α) : Bool := !lt y x

theorem ksMerge_spec {lt : α → α → Bool} {n ea eb : Nat} {a : Arr α} (ha : ea ≤ n) (hb : eb ≤ n) :
    ∀ (d j k p : Nat) (b : Arr α), (ea - j) + (eb - k) ≤ d → p + ((ea - j) + (eb - k)) ≤ n →
    ksMerge lt n a b j ea k eb p = .ok (putL b p (List.merge (seg a j ea) (seg a k eb) (leOf lt))) := by
  have hend : ∀ (j k p : Nat) (b : Arr α), ¬ (j < ea ∧ k < eb) → p + ((ea - j) + (eb - k)) ≤ n →
      ksMerge lt n a b j ea k eb p = .ok (putL b p (List.merge (seg a j ea) (seg a k eb) (leOf lt))) := by
    intro j k p b hc hp
    rw [ksMerge, if_neg hc, ksCopy_spec ha (ea - j) j p b (le_refl _) (by omega)]
    simp only [Res.ok_bind]
    rw [ksCopy_spec hb (eb - k) k _ _ (le_refl _) (by omega)]
    simp only [Res.ok_bind, Res.pure_eq]
    have hm : List.merge (seg a j ea) (seg a k eb) (leOf lt) = seg a j ea ++ seg a k eb := by
      rcases Nat.lt_or_ge j ea with h | h
      · rw [seg_nil (i := k) (j := eb) (by omega)]; simp
      · rw [seg_nil (i := j) (j := ea) h]; simp
    rw [hm, putL_append, seg_length]
  intro d
  induction d with
  | zero => intro j k p b hd hp; exact hend j k p b (by omega) hp
  | succ d ih =>
    intro j k p b hd hp
    by_cases hc : j < ea ∧ k < eb
    · obtain ⟨h1, h2⟩ := hc
      rw [ksMerge, if_pos ⟨h1, h2⟩, rd_ok (by omega)]
      simp only [Res.ok_bind]
      rw [rd_ok (by omega)]
      simp only [Res.ok_bind]
      rw [seg_cons h1, seg_cons h2, List.cons_merge_cons]
      cases hl : lt (a k) (a j)
      · simp only [Bool.false_eq_true, if_false, leOf, hl, Bool.not_false, if_true]
        rw [wr_ok (by omega)]
        simp only [Res.ok_bind]
        rw [ih (j + 1) k (p + 1) _ (by omega) (by omega), putL, seg_cons h2]
      · simp only [if_true, leOf, hl, Bool.not_true, Bool.false_eq_true, if_false]
        rw [wr_ok (by omega)]
        simp only [Res.ok_bind]
        rw [ih j (k + 1) (p + 1) _ (by omega) (by omega), putL, seg_cons h1]
    · exact hend j k p b hc hp

/-- From block `m` on, `b'` holds the merged pairs of blocks of `a`. -/
def Merged (lt : α → α → Bool) (n step : Nat) (a b' : Arr α) (m0 : Nat) : Prop :=
  ∀ m, m0 ≤ m → m * (2 * step) < n →
    seg b' (m * (2 * step)) (min (m * (2 * step) + 2 * step) n) =
      List.merge (seg a (m * (2 * step)) (min (m * (2 * step) + step) n))
        (seg a (min (m * (2 * step) + step) n) (min (m * (2 * step) + 2 * step) n)) (leOf lt)

theorem merged_step {lt : α → α → Bool} {n step m0 : Nat} {a b b' : Arr α} {l : List α}
    (hl : l = List.merge (seg a (m0 * (2 * step)) (min (m0 * (2 * step) + step) n))
      (seg a (min (m0 * (2 * step) + step) n) (min (m0 * (2 * step) + 2 * step) n)) (leOf lt))
    (h1 : ∀ i, i < (m0 + 1) * (2 * step) → b' i = putL b (m0 * (2 * step)) l i)
    (h2 : Merged lt n step a b' (m0 + 1)) (hm : m0 * (2 * step) < n) : Merged lt n step a b' m0 := by
  intro m hm0 hmn
  rcases Nat.lt_or_ge m0 m with h | h
  · exact h2 m h hmn
  · have : m = m0 := by omega
    subst this
    have hlen : l.length = min (m * (2 * step) + 2 * step) n - m * (2 * step) := by
      rw [hl, List.length_merge, seg_length, seg_length]; omega
    have e : min (m * (2 * step) + 2 * step) n = m * (2 * step) + l.length := by omega
    have hb : (m + 1) * (2 * step) = m * (2 * step) + 2 * step := by ring
    rw [ks_seg_congr (b := putL b (m * (2 * step)) l) (fun i _ hi => h1 i (by omega)), ← hl]
    conv_lhs => rw [e]
    exact seg_putL

theorem ksPass_spec {lt : α → α → Bool} {n step : Nat} {a : Arr α} (hs : 0 < step) : ∀ (d m : Nat) (b : Arr α),
    n - m * (2 * step) ≤ d →
    ∃ b', ksPass lt n step a b (m * (2 * step)) = .ok b' ∧ (∀ i, i < m * (2 * step) → b' i = b i) ∧
      Merged lt n step a b' m := by
  intro d
  induction d with
  | zero =>
    intro m b hd
    refine ⟨b, ?_, fun _ _ => rfl, fun m' h1 h2 => ?_⟩
    · rw [ksPass, if_neg (by omega)]; rfl
    · have := Nat.mul_le_mul_right (2 * step) h1
      omega
  | succ d ih =>
    intro m b hd
    have hb : (m + 1) * (2 * step) = m * (2 * step) + 2 * step := by ring
    by_cases hi : m * (2 * step) < n
    · set i := m * (2 * step) with hidef
      obtain ⟨b', e, h1, h2⟩ := ih (m + 1) (putL b i (List.merge (seg a i (min (i + step) n))
        (seg a (min (i + step) n) (min (i + 2 * step) n)) (leOf lt))) (by omega)
      have hlen : (List.merge (seg a i (min (i + step) n))
        (seg a (min (i + step) n) (min (i + 2 * step) n)) (leOf lt)).length = min (i + 2 * step) n - i := by
          rw [List.length_merge, seg_length, seg_length]; omega
      refine ⟨b', ?_, ?_, merged_step rfl h1 h2 hi⟩
      · rw [ksPass, if_pos hi]
        have hm : ksMerge lt n a b i (if n < i + step then n else i + step) (i + step)
            (if n < i + step then 0 else if n < i + 2 * step then n else i + 2 * step) i =
            .ok (putL b i (List.merge (seg a i (min (i + step) n))
              (seg a (min (i + step) n) (min (i + 2 * step) n)) (leOf lt))) := by
          by_cases hc : n < i + step
          · rw [if_pos hc, if_pos hc, ksMerge_spec (le_refl _) (by omega) n i (i + step) i b (by omega) (by omega)]
            rw [show min (i + step) n = n by omega, show min (i + 2 * step) n = n by omega,
              seg_nil (a := a) (i := i + step) (j := 0) (by omega), seg_nil (a := a) (i := n) (j := n) (le_refl _)]
          · rw [if_neg hc, if_neg hc, show (if n < i + 2 * step then n else i + 2 * step) = min (i + 2 * step) n by
                split <;> omega, show min (i + step) n = i + step by omega]
            exact ksMerge_spec (by omega) (by omega) (2 * step) i (i + step) i b (by omega) (by omega)
        rw [hm]
        simp only [Res.ok_bind]
        rw [hb] at e; exact e
      · intro k hk
        rw [h1 k (by omega), putL_below hk]
    · refine ⟨b, ?_, fun _ _ => rfl, fun m' h1 h2 => ?_⟩
      · rw [ksPass, if_neg hi]; rfl
      · have := Nat.mul_le_mul_right (2 * step) h1
        omega

theorem ksPairs_spec {lt : α → α → Bool} {n : Nat} {a : Arr α} : ∀ (d m : Nat) (b : Arr α),
    n - m * (2 * 1) ≤ d →
    ∃ b', ksPairs lt n a b (m * (2 * 1)) (m * (2 * 1)) = .ok b' ∧ (∀ i, i < m * (2 * 1) → b' i = b i) ∧
      Merged lt n 1 a b' m := by
  intro d
  induction d with
  | zero =>
    intro m b hd
    refine ⟨b, ?_, fun _ _ => rfl, fun m' h1 h2 => ?_⟩
    · rw [ksPairs, if_neg (by omega)]; rfl
    · omega
  | succ d ih =>
    intro m b hd
    by_cases hi : m * (2 * 1) < n
    · obtain ⟨b', e, h1, h2⟩ := ih (m + 1) (putL b (m * (2 * 1)) (List.merge (seg a (m * (2 * 1)) (min (m * (2 * 1) + 1) n))
        (seg a (min (m * (2 * 1) + 1) n) (min (m * (2 * 1) + 2 * 1) n)) (leOf lt))) (by omega)
      refine ⟨b', ?_, ?_, merged_step rfl h1 h2 hi⟩
      · rw [ksPairs, if_pos hi]
        rw [show (m + 1) * (2 * 1) = m * (2 * 1) + 2 by ring] at e
        set i := m * (2 * 1) with hidef
        by_cases hc : i = n - 1
        · rw [if_pos hc, rd_ok (by omega)]
          simp only [Res.ok_bind]
          rw [wr_ok (by omega)]
          simp only [Res.ok_bind]
          rw [show min (i + 1) n = i + 1 by omega, show min (i + 2 * 1) n = i + 1 by omega,
            seg_cons (by omega), seg_nil (le_refl _)] at e
          simp only [List.merge_right, putL] at e
          rw [ksPairs, if_neg (by omega)] at e ⊢
          exact e
        · rw [if_neg hc, rd_ok (by omega)]
          simp only [Res.ok_bind]
          rw [rd_ok (by omega)]
          simp only [Res.ok_bind]
          rw [wr_ok (by omega)]
          simp only [Res.ok_bind]
          rw [wr_ok (by omega)]
          simp only [Res.ok_bind]
          rw [show min (i + 1) n = i + 1 by omega, show min (i + 2 * 1) n = i + 2 by omega,
            seg_cons (i := i) (by omega), seg_nil (i := i + 1) (j := i + 1) (le_refl _), seg_cons (by omega),
            seg_nil (le_refl _), List.cons_merge_cons] at e
          cases hl : lt (a (i + 1)) (a i)
          · rw [leOf, hl] at e
            simpa [putL] using e
          · rw [leOf, hl] at e
            simpa [putL] using e
      · intro k hk
        rw [h1 k (by omega), putL_below hk]
    · refine ⟨b, ?_, fun _ _ => rfl, fun m' h1 h2 => ?_⟩
      · rw [ksPairs, if_neg hi]; rfl
      · omega

/-! ### merging is stable -/

theorem filter_merge {lt : α → α → Bool} (wo : WeakOrder lt) (c : α) : ∀ (xs ys : List α), Sorted lt xs →
    (List.merge xs ys (leOf lt)).filter (equiv lt c) = xs.filter (equiv lt c) ++ ys.filter (equiv lt c) := by
  intro xs
  induction xs with
  | nil => intro ys _; simp
  | cons x xs ihx =>
    intro ys
    induction ys with
    | nil => intro _; simp
    | cons y ys ihy =>
      intro hs
      rw [List.cons_merge_cons]
      cases hl : lt y x
      · rw [leOf, hl]
        simp only [Bool.not_false, if_true, List.filter_cons]
        rw [ihx (y :: ys) (List.pairwise_cons.1 hs).2, List.filter_cons]
        split <;> simp
      · rw [leOf, hl]
        simp only [Bool.not_true, Bool.false_eq_true, if_false]
        rw [List.filter_cons, ihy hs]
        by_cases hy : equiv lt c y = true
        · -- nothing in `xs` is equivalent
          have hnone : ∀ z ∈ x :: xs, equiv lt c z = false := by
            intro z hz
            have hxz : lt y z = true := by
              rcases List.mem_cons.1 hz with rfl | hz
              · exact hl
              · have h3 := (List.pairwise_cons.1 hs).1 z hz
                cases h4 : lt y z
                · have := wo.negtrans _ _ _ h4 h3
                  rw [hl] at this; exact absurd this (by decide)
                · rfl
            cases hz2 : equiv lt c z
            · rfl
            · simp only [equiv, Bool.and_eq_true, Bool.not_eq_true'] at hy hz2
              have := wo.negtrans _ _ _ hy.2 hz2.1
              rw [hxz] at this; exact absurd this (by decide)
          have hf : (x :: xs).filter (equiv lt c) = [] := by
            rw [List.filter_eq_nil_iff]
            intro z hz; rw [hnone z hz]; decide
          rw [hf, if_pos hy]
          simp [hy]
        · rw [if_neg hy]
          simp [hy]

theorem sorted_merge {lt : α → α → Bool} (wo : WeakOrder lt) : ∀ (xs ys : List α), Sorted lt xs → Sorted lt ys →
    Sorted lt (List.merge xs ys (leOf lt)) := by
  intro xs
  induction xs with
  | nil => intro ys _ h; simpa using h
  | cons x xs ihx =>
    intro ys
    induction ys with
    | nil => intro h _; simpa using h
    | cons y ys ihy =>
      intro hx hy
      rw [List.cons_merge_cons]
      cases hl : lt y x
      · rw [leOf, hl]
        simp only [Bool.not_false, if_true]
        refine List.pairwise_cons.2 ⟨?_, ihx _ (List.pairwise_cons.1 hx).2 hy⟩
        intro z hz
        rcases List.mem_merge.1 hz with h | h
        · exact (List.pairwise_cons.1 hx).1 z h
        · rcases List.mem_cons.1 h with rfl | h
          · exact hl
          · exact wo.negtrans _ _ _ ((List.pairwise_cons.1 hy).1 z h) hl
      · rw [leOf, hl]
        simp only [Bool.not_true, Bool.false_eq_true, if_false]
        refine List.pairwise_cons.2 ⟨?_, ihy hx (List.pairwise_cons.1 hy).2⟩
        intro z hz
        rcases List.mem_merge.1 hz with h | h
        · rcases List.mem_cons.1 h with rfl | h
          · exact wo.asymm _ _ hl
          · exact wo.negtrans _ _ _ ((List.pairwise_cons.1 hx).1 z h) (wo.asymm _ _ hl)
        · exact (List.pairwise_cons.1 hy).1 z h

theorem stable_merge {lt : α → α → Bool} (wo : WeakOrder lt) {l1 l2 r1 r2 : List α} (h1 : StableSortOf lt l1 r1)
    (h2 : StableSortOf lt l2 r2) : StableSortOf lt (l1 ++ l2) (List.merge r1 r2 (leOf lt)) := by
  refine ⟨⟨?_, ?_⟩, ?_⟩
  · exact (List.merge_perm_append _).trans (h1.perm.append h2.perm)
  · exact sorted_merge wo _ _ h1.sorted h2.sorted
  · intro x
    rw [filter_merge wo x _ _ h1.sorted, List.filter_append, h1.stable, h2.stable]

/-! ### the passes -/

/-- Every block of `w` elements is sorted. -/
def Blocks (lt : α → α → Bool) (n w : Nat) (a0 a : Arr α) : Prop :=
  ∀ m, m * w < n → StableSortOf lt (seg a0 (m * w) (min (m * w + w) n)) (seg a (m * w) (min (m * w + w) n))

theorem blocks_one (lt : α → α → Bool) (n : Nat) (a : Arr α) : Blocks lt n 1 a a := by
  intro m hm
  rw [show min (m * 1 + 1) n = m * 1 + 1 by omega, seg_cons (by omega), seg_nil (le_refl _)]
  exact ⟨⟨List.Perm.refl _, by simp [Sorted]⟩, fun _ => rfl⟩

theorem blocks_double {lt : α → α → Bool} (wo : WeakOrder lt) {n w : Nat} {a0 a b : Arr α} (hb : Blocks lt n w a0 a)
    (hm : Merged lt n w a b 0) : Blocks lt n (2 * w) a0 b := by
  intro m hmn
  rw [hm m (by omega) hmn]
  have e1 : m * (2 * w) = 2 * m * w := by ring
  have e2 : (2 * m + 1) * w = 2 * m * w + w := by ring
  rw [e1] at hmn ⊢
  have h1 := hb (2 * m) hmn
  have h0 := @seg_append α a0 (2 * m * w) (min (2 * m * w + w) n) (min (2 * m * w + 2 * w) n) (by omega) (by omega)
  rw [← h0]
  refine stable_merge wo h1 ?_
  rcases Nat.lt_or_ge (2 * m * w + w) n with h | h
  · have h2 := hb (2 * m + 1) (by omega)
    rw [e2] at h2
    rw [show min (2 * m * w + w) n = 2 * m * w + w by omega]
    rw [show 2 * m * w + 2 * w = 2 * m * w + w + w by ring]
    exact h2
  · rw [show min (2 * m * w + w) n = n by omega, show min (2 * m * w + 2 * w) n = n by omega, seg_nil (le_refl _),
      seg_nil (le_refl _)]
    exact ⟨⟨List.Perm.refl _, by simp [Sorted]⟩, fun _ => rfl⟩

theorem ksPasses_spec {lt : α → α → Bool} (wo : WeakOrder lt) {n : Nat} {a0 : Arr α} : ∀ (d shift curr : Nat)
    (a b : Arr α), n - 2 ^ shift ≤ d → Blocks lt n (2 ^ shift) a0 a →
    ∃ g, ksPasses lt n a b curr shift = .ok g ∧ StableSortOf lt (elems n a0) (elems n g) := by
  have hend : ∀ (shift curr : Nat) (a b : Arr α), ¬ 2 ^ shift < n → Blocks lt n (2 ^ shift) a0 a →
    ∃ g, ksPasses lt n a b curr shift = .ok g ∧ StableSortOf lt (elems n a0) (elems n g) := by
    intro shift curr a b hn hb
    have hso : StableSortOf lt (elems n a0) (elems n a) := by
      rw [elems_eq_seg, elems_eq_seg]
      rcases Nat.eq_zero_or_pos n with h | h
      · subst h
        rw [seg_nil (le_refl _), seg_nil (le_refl _)]
        exact ⟨⟨List.Perm.refl _, by simp [Sorted]⟩, fun _ => rfl⟩
      · have := hb 0 (by omega)
        rwa [Nat.zero_mul, Nat.zero_add, show min (2 ^ shift) n = n by omega] at this
    rw [ksPasses, if_neg hn]
    by_cases hc : curr = 1
    · rw [if_pos hc, ksCopy_spec (le_refl _) n 0 0 b (by omega) (by omega)]
      refine ⟨_, rfl, ?_⟩
      have e : elems n (putL b 0 (seg a 0 n)) = elems n a := by
        have := @seg_putL α (seg a 0 n) b 0
        rw [seg_length, Nat.zero_add, Nat.sub_zero] at this
        rw [elems_eq_seg, elems_eq_seg, this]
      dsimp only
      rw [e]; exact hso
    · rw [if_neg hc]
      exact ⟨a, rfl, hso⟩
  intro d
  induction d with
  | zero => intro shift curr a b hd hb; exact hend shift curr a b (by omega) hb
  | succ d ih =>
    intro shift curr a b hd hb
    by_cases hn : 2 ^ shift < n
    · have hp : 2 ^ (shift + 1) = 2 * 2 ^ shift := by ring
      have hpos : 0 < 2 ^ shift := Nat.two_pow_pos _
      have hstep : ∃ b', (if shift = 0 then ksPairs lt n a b 0 0 else ksPass lt n (2 ^ shift) a b 0) = .ok b' ∧
          Merged lt n (2 ^ shift) a b' 0 := by
        by_cases h0 : shift = 0
        · subst h0
          rw [if_pos rfl]
          obtain ⟨b', e, _, h⟩ := @ksPairs_spec α lt n a n 0 b (by omega)
          rw [Nat.zero_mul] at e
          exact ⟨b', e, h⟩
        · rw [if_neg h0]
          obtain ⟨b', e, _, h⟩ := @ksPass_spec α lt n (2 ^ shift) a hpos n 0 b (by omega)
          rw [Nat.zero_mul] at e
          exact ⟨b', e, h⟩
      obtain ⟨b', e, hm⟩ := hstep
      have hb' := blocks_double wo hb hm
      rw [← hp] at hb'
      obtain ⟨g, e2, hg⟩ := ih (shift + 1) (1 - curr) b' a (by omega) hb'
      refine ⟨g, ?_, hg⟩
      rw [ksPasses, if_pos hn, e]
      exact e2
    · exact hend shift curr a b hn hb

end Minilib

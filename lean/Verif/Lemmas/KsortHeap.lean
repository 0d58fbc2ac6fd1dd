import Verif.Lemmas.Ksort
/-
Lemmas about the heap sort template.
-/

set_option autoImplicit false

namespace Minilib
open Spec

variable {α : Type}

/-- No node below `n` whose father is at `lo` or later is larger than the father. -/
def HeapFrom (lt : α → α → Bool) (n lo : Nat) (v : Arr α) : Prop :=
  ∀ c, 0 < c → c < n → lo ≤ (c - 1) / 2 → lt (v ((c - 1) / 2)) (v c) = false

/-- A heap from `lo` on but for the node `i`: its sons may be larger than it, not than its father. -/
structure HeapBut (lt : α → α → Bool) (n lo i : Nat) (v : Arr α) : Prop where
  edge : ∀ c, 0 < c → c < n → lo ≤ (c - 1) / 2 → (c - 1) / 2 ≠ i → lt (v ((c - 1) / 2)) (v c) = false
  over : ∀ c, 0 < c → c < n → (c - 1) / 2 = i → 0 < i → lo ≤ (i - 1) / 2 → lt (v ((i - 1) / 2)) (v c) = false

theorem ksAdjustLoop_spec (lt : α → α → Bool) {size n lo : Nat} {tmp : α} (hn : n ≤ size) :
    ∀ (d i : Nat) (l : Arr α), n - i ≤ d → i < n → lo ≤ i →
    ∃ g, ksAdjustLoop lt size n tmp l i i = .ok g ∧ RIn lo n (Function.update l i tmp) g ∧
      (WeakOrder lt → HeapBut lt n lo i (Function.update l i tmp) → HeapFrom lt n lo g) := by
  intro d
  induction d with
  | zero => intro i l h1 h2; omega
  | succ d ih =>
    intro i l hd hi hlo
    rw [ksAdjustLoop]
    by_cases hc : 2 * i + 1 < n
    · rw [if_pos hc]
      have hright : ∃ b : Bool, (if 2 * i + 1 ≠ n - 1 then ltAt lt size l (2 * i + 1) (2 * i + 2) else pure false) = .ok b ∧
          (b = true → 2 * i + 2 < n ∧ lt (l (2 * i + 1)) (l (2 * i + 2)) = true) ∧
          (b = false → 2 * i + 2 < n → lt (l (2 * i + 1)) (l (2 * i + 2)) = false) := by
        by_cases h : 2 * i + 1 ≠ n - 1
        · rw [if_pos h, ltAt_ok (by omega) (by omega)]
          exact ⟨_, rfl, fun hb => ⟨by omega, hb⟩, fun hb _ => hb⟩
        · rw [if_neg h]
          exact ⟨false, rfl, by simp, fun _ h2 => by omega⟩
      obtain ⟨b, eb, b1, b2⟩ := hright
      rw [eb]
      simp only [Res.ok_bind]
      -- the larger son
      obtain ⟨k, hk⟩ : ∃ k, k = if b = true then 2 * i + 2 else 2 * i + 1 := ⟨_, rfl⟩
      rw [← hk]
      have hkn : k < n := by
        rw [hk]; cases hb : b
        · simpa using hc
        · have := (b1 hb).1; simpa using this
      have hk1 : k = 2 * i + 1 ∨ k = 2 * i + 2 := by
        rw [hk]; split
        · exact .inr rfl
        · exact .inl rfl
      have hmax : WeakOrder lt → ∀ c, 0 < c → c < n → (c - 1) / 2 = i → lt (l k) (l c) = false := by
        intro wo c c0 cn cp
        have hc2 : c = 2 * i + 1 ∨ c = 2 * i + 2 := by omega
        cases hb : b
        · rw [hb] at hk; simp only [Bool.false_eq_true, if_false] at hk
          rcases hc2 with h | h
          · rw [hk, h]; exact wo.irrefl _
          · rw [hk, h]; exact b2 hb (by omega)
        · rw [hb] at hk; simp only [if_true] at hk
          rcases hc2 with h | h
          · rw [hk, h]; exact wo.asymm _ _ (b1 hb).2
          · rw [hk, h]; exact wo.irrefl _
      rw [rd_ok (by omega)]
      simp only [Res.ok_bind]
      cases hl : lt (l k) tmp
      · simp only [Bool.false_eq_true, if_false]
        rw [wr_ok (by omega)]
        simp only [Res.ok_bind]
        obtain ⟨g, e, r, hp⟩ := ih k (Function.update l i (l k)) (by omega) hkn (by omega)
        have hv : Function.update (Function.update l i (l k)) k tmp = swp (Function.update l i tmp) i k := by
          rw [swp_update _ (by omega)]
          rw [Function.update_self, Function.update_of_ne (by omega : k ≠ i), Function.update_idem]
        refine ⟨g, e, ?_, fun wo hb => hp wo ?_⟩
        · rw [hv] at r
          exact (RIn.swp _ (by omega) (by omega) (by omega) (by omega)).trans r
        · rw [hv]
          set v := Function.update l i tmp with hvd
          have hvk : v k = l k := Function.update_of_ne (by omega) _ _
          have hvi : v i = tmp := Function.update_self _ _ _
          have hvc : ∀ c, 0 < c → (c - 1) / 2 = i → v c = l c := by
            intro c h1 h2; exact Function.update_of_ne (by omega) _ _
          constructor
          · intro c c0 cn cl cp
            by_cases hpi : (c - 1) / 2 = i
            · rw [hpi, swp_left, hvk]
              by_cases hck : c = k
              · rw [hck, swp_right, hvi]; exact hl
              · rw [swp_ne _ (by omega) hck, hvc c c0 hpi]; exact hmax wo c c0 cn hpi
            · rw [swp_ne _ hpi cp]
              by_cases hci : c = i
              · rw [hci, swp_left]
                exact hb.over k (by omega) hkn (by omega) (by omega) (by rw [← hci]; exact cl)
              · have hck : c ≠ k := by omega
                rw [swp_ne _ hci hck]
                exact hb.edge c c0 cn cl hpi
          · intro c c0 cn cp k0 kl
            have hki : (k - 1) / 2 = i := by omega
            rw [hki, swp_left, swp_ne _ (by omega) (by omega)]
            have := hb.edge c c0 cn (by omega) (by omega)
            rw [cp] at this
            exact this
      · simp only [if_true]
        rw [wr_ok (by omega)]
        refine ⟨_, rfl, RIn.refl _ _ _, fun wo hb c c0 cn cl => ?_⟩
        by_cases hpi : (c - 1) / 2 = i
        · rw [hpi, Function.update_self, Function.update_of_ne (by omega)]
          exact wo.negtrans _ _ _ (wo.asymm _ _ hl) (hmax wo c c0 cn hpi)
        · exact hb.edge c c0 cn cl hpi
    · rw [if_neg hc, wr_ok (by omega)]
      refine ⟨_, rfl, RIn.refl _ _ _, fun wo hb c c0 cn cl => ?_⟩
      exact hb.edge c c0 cn cl (by omega)

theorem ksHeapadjust_spec (lt : α → α → Bool) {size n i : Nat} (hn : n ≤ size) (hi : i < n) (l : Arr α) :
    ∃ g, ksHeapadjust lt size i n l = .ok g ∧ RIn i n l g ∧
      (WeakOrder lt → HeapFrom lt n (i + 1) l → HeapFrom lt n i g) := by
  unfold ksHeapadjust
  rw [rd_ok (by omega)]
  simp only [Res.ok_bind]
  obtain ⟨g, e, r, h⟩ := ksAdjustLoop_spec lt (tmp := l i) hn (n - i) i l (le_refl _) hi (le_refl i)
  rw [Function.update_eq_self] at r h
  refine ⟨g, e, r, fun wo hh => h wo ⟨fun c c0 cn cl cp => hh c c0 cn (by omega), fun c _ _ _ i0 il => ?_⟩⟩
  omega

theorem ksHeapmakeLoop_spec (lt : α → α → Bool) {size : Nat} : ∀ (i : Nat) (l : Arr α), i ≤ size →
    ∃ g, ksHeapmakeLoop lt size l i = .ok g ∧ RIn 0 size l g ∧
      (WeakOrder lt → HeapFrom lt size i l → HeapFrom lt size 0 g) := by
  intro i
  induction i with
  | zero => intro l _; exact ⟨l, rfl, RIn.refl _ _ _, fun _ h => h⟩
  | succ i ih =>
    intro l hi
    obtain ⟨g, e, r, h⟩ := ksHeapadjust_spec lt (le_refl size) (by omega : i < size) l
    obtain ⟨g', e', r', h'⟩ := ih g (by omega)
    refine ⟨g', ?_, (r.mono (by omega) (le_refl _)).trans r', fun wo hh => h' wo (h wo hh)⟩
    rw [ksHeapmakeLoop, e]; exact e'

theorem ksHeapmake_spec (lt : α → α → Bool) (size : Nat) (l : Arr α) :
    ∃ g, ksHeapmake lt size l = .ok g ∧ RIn 0 size l g ∧ (WeakOrder lt → HeapFrom lt size 0 g) := by
  obtain ⟨g, e, r, h⟩ := ksHeapmakeLoop_spec lt (size := size) (size / 2) l (by omega)
  exact ⟨g, e, r, fun wo => h wo (fun c c0 cn cl => by omega)⟩

/-- The root of a heap is largest. -/
theorem heap_root {lt : α → α → Bool} (wo : WeakOrder lt) {n : Nat} {v : Arr α} (h : HeapFrom lt n 0 v) :
    ∀ c, c < n → lt (v 0) (v c) = false := by
  intro c
  induction c using Nat.strong_induction_on with
  | _ c ih =>
    intro hc
    rcases Nat.eq_zero_or_pos c with h0 | h0
    · subst h0; exact wo.irrefl _
    · exact wo.negtrans _ _ _ (ih ((c - 1) / 2) (by omega) (by omega)) (h c h0 hc (by omega))

theorem ksHeapsortLoop_spec (lt : α → α → Bool) {size : Nat} : ∀ (i : Nat) (l : Arr α), i < size →
    ∃ g, ksHeapsortLoop lt size l i = .ok g ∧ RIn 0 size l g ∧
      (WeakOrder lt → HeapFrom lt (i + 1) 0 l → SortedIn lt (i + 1) size l →
        (∀ j k, j ≤ i → i < k → k < size → lt (l k) (l j) = false) → SortedIn lt 0 size g) := by
  intro i
  induction i with
  | zero =>
    intro l hi
    refine ⟨l, rfl, RIn.refl _ _ _, fun wo _ hs ha => ?_⟩
    intro j k h1 h2 h3
    rcases Nat.eq_zero_or_pos j with h | h
    · exact ha j k (by omega) (by omega) h3
    · exact hs j k (by omega) h2 h3
  | succ i ih =>
    intro l hi
    rw [ksHeapsortLoop, exch_ok (by omega) hi]
    simp only [Res.ok_bind]
    obtain ⟨g, e, r, h⟩ := ksHeapadjust_spec lt (by omega : i + 1 ≤ size) (by omega : 0 < i + 1) (swp l 0 (i + 1))
    rw [e]
    simp only [Res.ok_bind]
    obtain ⟨g', e', r', h'⟩ := ih g (by omega)
    have hsw : RIn 0 size l (swp l 0 (i + 1)) := RIn.swp l (by omega) (by omega) (by omega) hi
    refine ⟨g', e', (hsw.trans (r.mono (le_refl _) (by omega))).trans r', fun wo hh hs ha => ?_⟩
    have hroot := heap_root wo hh
    apply h' wo
    · apply h wo
      intro c c0 cn cl
      rw [swp_ne _ (by omega) (by omega), swp_ne _ (by omega) (by omega)]
      exact hh c c0 (by omega) (by omega)
    · intro j k h1 h2 h3
      rw [r.out (by omega), r.out (by omega)]
      rw [swp_ne (k := k) _ (by omega) (by omega)]
      rcases Nat.lt_or_ge (i + 1) j with h4 | h4
      · rw [swp_ne _ (by omega) (by omega)]; exact hs j k (by omega) h2 h3
      · have : j = i + 1 := by omega
        subst this
        rw [swp_right]; exact ha 0 k (by omega) (by omega) h3
    · intro j k hj hk hks
      obtain ⟨j', _, j2, ej⟩ := r.src (i := j) (by omega) (by omega)
      rw [ej, r.out (by omega)]
      -- `j'` holds an element of the old heap
      have hj' : ∃ j2, j2 ≤ i + 1 ∧ swp l 0 (i + 1) j' = l j2 := by
        rcases Nat.eq_zero_or_pos j' with h4 | h4
        · subst h4; exact ⟨i + 1, le_refl _, swp_left _ _ _⟩
        · exact ⟨j', by omega, swp_ne _ (by omega) (by omega)⟩
      obtain ⟨q, hq, eq⟩ := hj'
      rw [eq]
      rcases Nat.lt_or_ge (i + 1) k with h4 | h4
      · rw [swp_ne _ (by omega) (by omega)]; exact ha q k hq h4 hks
      · have : k = i + 1 := by omega
        subst this
        rw [swp_right]; exact hroot q (by omega)

theorem ksHeapsort_spec (lt : α → α → Bool) (size : Nat) (l : Arr α) :
    ∃ g, ksHeapsort lt size l = .ok g ∧ RIn 0 size l g ∧
      (WeakOrder lt → HeapFrom lt size 0 l → SortedIn lt 0 size g) := by
  rcases Nat.eq_zero_or_pos size with h | h
  · subst h
    exact ⟨l, rfl, RIn.refl _ _ _, fun _ _ i j _ _ h => by omega⟩
  · obtain ⟨g, e, r, hh⟩ := ksHeapsortLoop_spec lt (size := size) (size - 1) l (by omega)
    refine ⟨g, e, r, fun wo hp => hh wo ?_ ?_ ?_⟩
    · rw [show size - 1 + 1 = size by omega]; exact hp
    · intro j k h1 h2 h3; omega
    · intro j k h1 h2 h3; omega

end Minilib

import Verif.Model.Ksort
import Verif.Spec.Sort
import Mathlib.Data.List.Perm.Basic
import Mathlib.Data.List.Nodup
import Mathlib.Logic.Equiv.Basic
import Mathlib.Tactic.Ring
import Mathlib.Tactic.Linarith
/-
Lemmas about the sorting templates: arrays, exchanges, insertion sort, comb sort.
-/

set_option autoImplicit false

namespace Minilib
open Spec

variable {α : Type}

/-! ### accesses -/

theorem rd_ok {n i : Nat} {a : Arr α} (h : i < n) : rd n a i = .ok (a i) := by simp [rd, h]

theorem wr_ok {n i : Nat} {a : Arr α} {x : α} (h : i < n) : wr n a i x = .ok (Function.update a i x) := by
  simp [wr, h]

/-- `a` with two elements exchanged. -/
def swp (a : Arr α) (i j : Nat) : Arr α := fun x => a (Equiv.swap i j x)

theorem swp_left (a : Arr α) (i j : Nat) : swp a i j i = a j := by simp [swp]
theorem swp_right (a : Arr α) (i j : Nat) : swp a i j j = a i := by simp [swp]
theorem swp_ne (a : Arr α) {i j k : Nat} (h1 : k ≠ i) (h2 : k ≠ j) : swp a i j k = a k := by
  simp [swp, Equiv.swap_apply_of_ne_of_ne h1 h2]

theorem swp_comm (a : Arr α) (i j : Nat) : swp a i j = swp a j i := by
  unfold swp; rw [Equiv.swap_comm]

theorem swp_self (a : Arr α) (i : Nat) : swp a i i = a := by
  funext x; simp [swp]

theorem exch_ok {n i j : Nat} {a : Arr α} (hi : i < n) (hj : j < n) : exch n a i j = .ok (swp a i j) := by
  unfold exch
  rw [rd_ok hi, rd_ok hj]
  simp only [Res.ok_bind]
  rw [wr_ok hi]
  simp only [Res.ok_bind]
  rw [wr_ok hj]
  congr 1
  funext x
  by_cases h1 : x = j
  · subst h1; rw [swp_right]; simp
  · by_cases h2 : x = i
    · subst h2; rw [swp_left]; simp [h1]
    · rw [swp_ne _ h2 h1]; simp [h1, h2]

theorem ltAt_ok {lt : α → α → Bool} {n i j : Nat} {a : Arr α} (hi : i < n) (hj : j < n) :
    ltAt lt n a i j = .ok (lt (a i) (a j)) := by
  simp [ltAt, rd_ok hi, rd_ok hj]

/-! ### rearrangements -/

/-- `g` is `f` with the elements from `lo` up to `hi` rearranged. -/
def RIn (lo hi : Nat) (f g : Arr α) : Prop :=
  ∃ σ : Equiv.Perm Nat, (∀ i, i < lo ∨ hi ≤ i → σ i = i) ∧ ∀ i, g i = f (σ i)

theorem RIn.refl (lo hi : Nat) (f : Arr α) : RIn lo hi f f := ⟨Equiv.refl _, by simp, by simp⟩

theorem RIn.trans {lo hi : Nat} {f g h : Arr α} (h1 : RIn lo hi f g) (h2 : RIn lo hi g h) :
    RIn lo hi f h := by
  obtain ⟨σ, s1, s2⟩ := h1
  obtain ⟨τ, t1, t2⟩ := h2
  refine ⟨τ.trans σ, fun i hi => ?_, fun i => ?_⟩
  · rw [Equiv.trans_apply, t1 i hi, s1 i hi]
  · rw [t2, s2]; rfl

theorem RIn.mono {lo hi lo' hi' : Nat} {f g : Arr α} (h : RIn lo hi f g) (hl : lo' ≤ lo) (hh : hi ≤ hi') :
    RIn lo' hi' f g := by
  obtain ⟨σ, s1, s2⟩ := h
  exact ⟨σ, fun i hi => s1 i (by omega), s2⟩

theorem RIn.swp {lo hi i j : Nat} (f : Arr α) (hi1 : lo ≤ i) (hi2 : i < hi) (hj1 : lo ≤ j) (hj2 : j < hi) :
    RIn lo hi f (swp f i j) :=
  ⟨Equiv.swap i j, fun _ _ => Equiv.swap_apply_of_ne_of_ne (by omega) (by omega), fun _ => rfl⟩

theorem RIn.out {lo hi : Nat} {f g : Arr α} (h : RIn lo hi f g) {i : Nat} (hi' : i < lo ∨ hi ≤ i) :
    g i = f i := by
  obtain ⟨σ, s1, s2⟩ := h
  rw [s2, s1 i hi']

theorem RIn.src {lo hi : Nat} {f g : Arr α} (h : RIn lo hi f g) {i : Nat} (h1 : lo ≤ i) (h2 : i < hi) :
    ∃ j, lo ≤ j ∧ j < hi ∧ g i = f j := by
  obtain ⟨σ, s1, s2⟩ := h
  refine ⟨σ i, ?_, ?_, s2 i⟩
  · by_contra hc
    have := s1 (σ i) (by omega)
    have := σ.injective this
    omega
  · by_contra hc
    have := s1 (σ i) (by omega)
    have := σ.injective this
    omega

/-- What holds of all elements of the range still does. -/
theorem RIn.all {lo hi : Nat} {f g : Arr α} (h : RIn lo hi f g) {P : α → Prop}
    (hp : ∀ i, lo ≤ i → i < hi → P (f i)) : ∀ i, lo ≤ i → i < hi → P (g i) := by
  intro i h1 h2
  obtain ⟨j, j1, j2, e⟩ := h.src h1 h2
  rw [e]; exact hp j j1 j2

theorem RIn.perm {lo hi n : Nat} {f g : Arr α} (h : RIn lo hi f g) (hn : hi ≤ n) :
    (elems n g).Perm (elems n f) := by
  obtain ⟨σ, s1, s2⟩ := h
  unfold elems
  have hg : (List.range n).map g = ((List.range n).map σ).map f := by
    rw [List.map_map]; apply List.map_congr_left; intro i _; exact s2 i
  rw [hg]
  apply List.Perm.map
  rw [List.perm_ext_iff_of_nodup (List.nodup_range.map σ.injective) List.nodup_range]
  intro a
  simp only [List.mem_map, List.mem_range]
  constructor
  · rintro ⟨b, hb, rfl⟩
    by_contra hge
    have := s1 (σ b) (by omega)
    have := σ.injective this
    omega
  · intro ha
    refine ⟨σ.symm a, ?_, by simp⟩
    by_contra hge
    have := s1 (σ.symm a) (by omega)
    rw [Equiv.apply_symm_apply] at this
    omega

/-- Sorted from `lo` up to `hi`. -/
def SortedIn (lt : α → α → Bool) (lo hi : Nat) (a : Arr α) : Prop :=
  ∀ i j, lo ≤ i → i < j → j < hi → lt (a j) (a i) = false

theorem SortedIn.elems {lt : α → α → Bool} {n : Nat} {a : Arr α} (h : SortedIn lt 0 n a) :
    Sorted lt (elems n a) := by
  unfold Spec.elems Sorted
  rw [List.pairwise_map]
  exact List.pairwise_lt_range.imp_of_mem (fun {i j} _ hj hij => h i j (by omega) hij (by simpa using hj))

/-- Neighbours in order: all in order. -/
theorem SortedIn.of_adj {lt : α → α → Bool} (wo : WeakOrder lt) {lo hi : Nat} {a : Arr α}
    (h : ∀ i, lo ≤ i → i + 1 < hi → lt (a (i + 1)) (a i) = false) : SortedIn lt lo hi a := by
  intro i j h1 h2 h3
  obtain ⟨d, rfl⟩ : ∃ d, j = i + 1 + d := ⟨j - (i + 1), by omega⟩
  clear h2
  induction d with
  | zero => exact h i h1 h3
  | succ d ih => exact wo.negtrans _ _ _ (h (i + 1 + d) (by omega) h3) (ih (by omega))

theorem _root_.Spec.WeakOrder.irrefl {lt : α → α → Bool} (wo : WeakOrder lt) (x : α) : lt x x = false := by
  cases h : lt x x
  · rfl
  · have := wo.asymm _ _ h; rw [h] at this; exact this

/-- Exchanging two neighbours of which the later strictly precedes keeps the order of equivalent
elements. -/
theorem stable_swp {lt : α → α → Bool} (wo : WeakOrder lt) {n j : Nat} {a : Arr α} (hj : j + 1 < n)
    (h : lt (a (j + 1)) (a j) = true) (x : α) :
    (elems n (swp a (j + 1) j)).filter (equiv lt x) = (elems n a).filter (equiv lt x) := by
  have hr : List.range n = List.range j ++ (j :: (j + 1) :: List.range' (j + 2) (n - (j + 2))) := by
    rw [List.range_eq_range', List.range_eq_range']
    have h1 : j :: (j + 1) :: List.range' (j + 2) (n - (j + 2)) = List.range' j (n - (j + 2) + 2) := by
      rw [List.range'_succ, List.range'_succ]
    rw [h1]
    have h2 := @List.range'_append_1 0 j (n - (j + 2) + 2)
    simp only [Nat.zero_add] at h2
    rw [h2]
    congr 1; omega
  unfold elems
  rw [hr]
  simp only [List.map_append, List.map_cons, List.filter_append]
  have e1 : (List.range j).map (swp a (j + 1) j) = (List.range j).map a := by
    apply List.map_congr_left; intro i hi
    simp only [List.mem_range] at hi
    exact swp_ne _ (by omega) (by omega)
  have e2 : (List.range' (j + 2) (n - (j + 2))).map (swp a (j + 1) j) =
      (List.range' (j + 2) (n - (j + 2))).map a := by
    apply List.map_congr_left; intro i hi
    simp only [List.mem_range'_1] at hi
    exact swp_ne _ (by omega) (by omega)
  rw [e1, e2, swp_left, swp_right]
  congr 1
  have hno : ¬ (equiv lt x (a j) = true ∧ equiv lt x (a (j + 1)) = true) := by
    rintro ⟨p, q⟩
    simp only [equiv, Bool.and_eq_true, Bool.not_eq_true'] at p q
    have := wo.negtrans _ _ _ q.2 p.1
    rw [h] at this; exact absurd this (by decide)
  simp only [List.filter_cons]
  split <;> split <;> simp_all

/-! ### insertion sort -/

/-- The inner loop puts element `j` to its place among the sorted elements below. -/
theorem ksInsert_spec (lt : α → α → Bool) {n s : Nat} : ∀ (j : Nat) (a : Arr α), j < n →
    ∃ g, ksInsert lt n s a j = .ok g ∧ RIn s (j + 1) a g ∧
      (WeakOrder lt → ∀ x, (elems n g).filter (equiv lt x) = (elems n a).filter (equiv lt x)) ∧
      (WeakOrder lt → SortedIn lt s j a → SortedIn lt s (j + 1) g ∧
        ∀ v, (∀ k, s ≤ k → k < j + 1 → lt v (a k) = false) → ∀ k, s ≤ k → k < j + 1 → lt v (g k) = false) := by
  intro j
  induction j with
  | zero =>
    intro a hj
    refine ⟨a, ?_, RIn.refl _ _ _, fun _ _ => rfl, fun _ _ => ⟨?_, fun v h => h⟩⟩
    · rw [ksInsert, if_neg (by omega)]; rfl
    · intro i k h1 h2 h3; omega
  | succ j ih =>
    intro a hj
    rw [ksInsert]
    by_cases hs : s < j + 1
    · rw [if_pos hs, Nat.add_sub_cancel, ltAt_ok hj (by omega)]
      simp only [Res.ok_bind]
      cases hc : lt (a (j + 1)) (a j)
      · simp only [Bool.false_eq_true, if_false]
        refine ⟨a, rfl, RIn.refl _ _ _, fun _ _ => rfl, fun wo hso => ⟨?_, fun v h => h⟩⟩
        refine SortedIn.of_adj wo (fun i h1 h2 => ?_)
        rcases Nat.lt_or_ge i j with h | h
        · exact hso i (i + 1) h1 (by omega) (by omega)
        · have : i = j := by omega
          subst this; exact hc
      · simp only [if_true]
        rw [exch_ok hj (by omega)]
        simp only [Res.ok_bind]
        obtain ⟨g, e, r, st, so⟩ := ih (swp a (j + 1) j) (by omega)
        refine ⟨g, e, ?_, ?_, ?_⟩
        · exact (RIn.swp a (by omega) (by omega) (by omega) (by omega)).trans (r.mono (le_refl _) (by omega))
        · intro wo x
          rw [st wo, stable_swp wo (by omega) hc]
        · intro wo hso
          have hso' : SortedIn lt s j (swp a (j + 1) j) := by
            intro i k h1 h2 h3
            rw [swp_ne _ (by omega) (by omega), swp_ne _ (by omega) (by omega)]
            exact hso i k h1 h2 (by omega)
          obtain ⟨so1, so2⟩ := so wo hso'
          have hlast : g (j + 1) = a j := by rw [r.out (by omega), swp_left]
          have hbelow : ∀ k, s ≤ k → k < j + 1 → lt (a j) (g k) = false := by
            apply so2
            intro k h1 h2
            rcases Nat.lt_or_ge k j with h | h
            · rw [swp_ne _ (by omega) (by omega)]; exact hso k j h1 h (by omega)
            · have : k = j := by omega
              subst this
              rw [swp_right]; exact wo.asymm _ _ hc
          refine ⟨?_, ?_⟩
          · intro i k h1 h2 h3
            rcases Nat.lt_or_ge k (j + 1) with h | h
            · exact so1 i k h1 h2 h
            · have : k = j + 1 := by omega
              subst this
              rw [hlast]; exact hbelow i h1 h2
          · intro v hv k h1 h2
            have := (RIn.swp a (lo := s) (hi := j + 1 + 1) (i := j + 1) (j := j) (by omega) (by omega) (by omega)
              (by omega)).trans (r.mono (le_refl _) (by omega))
            exact this.all (P := fun y => lt v y = false) hv k h1 h2
    · rw [if_neg hs]
      refine ⟨a, rfl, RIn.refl _ _ _, fun _ _ => rfl, fun _ _ => ⟨?_, fun v h => h⟩⟩
      intro i k h1 h2 h3; omega

theorem ksInsertLoop_spec (lt : α → α → Bool) {n s t : Nat} (ht : t ≤ n) : ∀ (d i : Nat) (a : Arr α), t - i ≤ d →
    s < i →
    ∃ g, ksInsertLoop lt n s t a i = .ok g ∧ RIn s t a g ∧
      (WeakOrder lt → ∀ x, (elems n g).filter (equiv lt x) = (elems n a).filter (equiv lt x)) ∧
      (WeakOrder lt → SortedIn lt s i a → SortedIn lt s t g) := by
  intro d
  induction d with
  | zero =>
    intro i a hd hs
    refine ⟨a, ?_, RIn.refl _ _ _, fun _ _ => rfl, fun _ h => ?_⟩
    · rw [ksInsertLoop, if_neg (by omega)]; rfl
    · intro k l h1 h2 h3; exact h k l h1 h2 (by omega)
  | succ d ih =>
    intro i a hd hs
    by_cases hi : i < t
    · obtain ⟨g, e, r, st, so⟩ := ksInsert_spec lt (n := n) (s := s) i a (by omega)
      obtain ⟨g', e', r', st', so'⟩ := ih (i + 1) g (by omega) (by omega)
      refine ⟨g', ?_, (r.mono (le_refl _) (by omega)).trans r', ?_, ?_⟩
      · rw [ksInsertLoop, if_pos hi, e]; exact e'
      · intro wo x; rw [st' wo, st wo]
      · intro wo h; exact so' wo (so wo h).1
    · refine ⟨a, ?_, RIn.refl _ _ _, fun _ _ => rfl, fun _ h => ?_⟩
      · rw [ksInsertLoop, if_neg hi]; rfl
      · intro k l h1 h2 h3; exact h k l h1 h2 (by omega)

theorem ksInsertsort_spec (lt : α → α → Bool) {n s t : Nat} (ht : t ≤ n) (a : Arr α) :
    ∃ g, ksInsertsort lt n s t a = .ok g ∧ RIn s t a g ∧
      (WeakOrder lt → ∀ x, (elems n g).filter (equiv lt x) = (elems n a).filter (equiv lt x)) ∧
      (WeakOrder lt → SortedIn lt s t g) := by
  obtain ⟨g, e, r, st, so⟩ := ksInsertLoop_spec lt (s := s) ht (t - (s + 1)) (s + 1) a (le_refl _) (by omega)
  exact ⟨g, e, r, st, fun wo => so wo (fun i j h1 h2 h3 => by omega)⟩

/-! ### comb sort -/

theorem _root_.Spec.WeakOrder.trans {lt : α → α → Bool} (wo : WeakOrder lt) {x y z : α} (h1 : lt x y = true)
    (h2 : lt y z = true) : lt x z = true := by
  cases h : lt x z
  · have := wo.negtrans _ _ _ (wo.asymm _ _ h1) h
    rw [h2] at this; exact absurd this (by decide)
  · rfl

/-- How many elements of the array precede `x`. -/
def ksRank (lt : α → α → Bool) (n : Nat) (a : Arr α) (x : α) : Nat :=
  (List.range n).countP (fun k => lt (a k) x)

theorem ksRank_lt {lt : α → α → Bool} (wo : WeakOrder lt) {n : Nat} {a : Arr α} {x y : α}
    (hx : ∃ k, k < n ∧ x = a k) (h : lt x y = true) : ksRank lt n a x < ksRank lt n a y := by
  obtain ⟨k, hk, rfl⟩ := hx
  unfold ksRank
  have hm : k ∈ List.range n := by simpa using hk
  generalize List.range n = l at hm
  induction l with
  | nil => simp at hm
  | cons b l ih =>
    have hle : ∀ l' : List Nat, l'.countP (fun j => lt (a j) (a k)) ≤ l'.countP (fun j => lt (a j) y) := by
      intro l'
      apply List.countP_mono_left
      intro z _ hz
      exact wo.trans hz h
    rw [List.countP_cons, List.countP_cons]
    rcases List.mem_cons.1 hm with rfl | hm
    · rw [if_neg (by rw [wo.irrefl]; decide), if_pos h]
      have := hle l
      omega
    · have := ih hm
      have h2 : (if lt (a b) (a k) = true then 1 else 0) ≤ (if lt (a b) y = true then 1 else 0) := by
        split
        · rename_i hb
          rw [if_pos (wo.trans hb h)]
        · omega
      omega

/-- The potential: larger elements further back weigh more. -/
def ksPot (ρ : α → Nat) (a : Arr α) : Nat → Nat
  | 0 => 0
  | n + 1 => ksPot ρ a n + n * ρ (a n)

theorem ksPot_congr {ρ : α → Nat} {a b : Arr α} : ∀ {n : Nat}, (∀ i, i < n → a i = b i) →
    ksPot ρ a n = ksPot ρ b n := by
  intro n
  induction n with
  | zero => intro _; rfl
  | succ n ih => intro h; rw [ksPot, ksPot, ih (fun i hi => h i (by omega)), h n (by omega)]

theorem ksPot_le {ρ : α → Nat} {a : Arr α} {N B : Nat} : ∀ {n : Nat}, n ≤ N → (∀ i, i < n → ρ (a i) ≤ B) →
    ksPot ρ a n ≤ n * (N * B) := by
  intro n
  induction n with
  | zero => intro _ _; simp [ksPot]
  | succ n ih =>
    intro hn h
    rw [ksPot]
    have h1 := ih (by omega) (fun i hi => h i (by omega))
    have h2 : n * ρ (a n) ≤ N * B := Nat.mul_le_mul (by omega) (h n (by omega))
    have h3 : (n + 1) * (N * B) = n * (N * B) + N * B := by ring
    omega

/-- Changing one element. -/
theorem ksPot_update {ρ : α → Nat} {a : Arr α} {i : Nat} {x : α} : ∀ {n : Nat}, i < n →
    ksPot ρ (Function.update a i x) n + i * ρ (a i) = ksPot ρ a n + i * ρ x := by
  intro n
  induction n with
  | zero => intro h; omega
  | succ n ih =>
    intro h
    rw [ksPot, ksPot]
    rcases Nat.lt_or_ge i n with hi | hi
    · rw [Function.update_of_ne (by omega)]
      have := ih hi
      omega
    · have : i = n := by omega
      subst this
      rw [Function.update_self, ksPot_congr (a := Function.update a i x) (b := a)
        (fun k hk => Function.update_of_ne (by omega) _ _)]
      omega

theorem swp_update (a : Arr α) {i j : Nat} (h : i ≠ j) :
    swp a i j = Function.update (Function.update a i (a j)) j (a i) := by
  funext x
  by_cases h1 : x = j
  · subst h1; rw [swp_right]; simp
  · by_cases h2 : x = i
    · subst h2; rw [swp_left]; simp [h1]
    · rw [swp_ne _ h2 h1]; simp [h1, h2]

/-- An exchange that puts the smaller element first raises the potential. -/
theorem ksPot_swp {ρ : α → Nat} {a : Arr α} {i j n : Nat} (hij : i < j) (hj : j < n) (h : ρ (a j) < ρ (a i)) :
    ksPot ρ a n < ksPot ρ (swp a i j) n := by
  rw [swp_update a (by omega)]
  have h1 := @ksPot_update α ρ (Function.update a i (a j)) j (a i) n hj
  have h2 := @ksPot_update α ρ a i (a j) n (by omega)
  rw [Function.update_of_ne (by omega)] at h1
  obtain ⟨d, hd⟩ : ∃ d, ρ (a i) = ρ (a j) + d + 1 := ⟨ρ (a i) - ρ (a j) - 1, by omega⟩
  obtain ⟨e, he⟩ : ∃ e, j = i + e + 1 := ⟨j - i - 1, by omega⟩
  rw [hd] at h1 h2
  have h3 : j * (ρ (a j) + d + 1) = j * ρ (a j) + j * (d + 1) := by ring
  have h4 : i * (ρ (a j) + d + 1) = i * ρ (a j) + i * (d + 1) := by ring
  have h5 : i * (d + 1) < j * (d + 1) := Nat.mul_lt_mul_of_pos_right hij (by omega)
  omega

/-- One pass: it only exchanges, the potential never falls, and when nothing was exchanged every pair
at that distance is in order. -/
theorem ksCombPass_spec {lt : α → α → Bool} (wo : WeakOrder lt) {n gap s e : Nat} {a0 : Arr α}
    (he : e + gap ≤ n) : ∀ (d i : Nat) (a : Arr α) (sw : Bool), e - i ≤ d → s ≤ i →
    RIn 0 n a0 a →
    ∃ g sw', ksCombPass lt n gap e a i sw = .ok (g, sw') ∧ RIn s (e + gap) a g ∧
      ksPot (ksRank lt n a0) a n ≤ ksPot (ksRank lt n a0) g n ∧
      (sw' = true → sw = true ∨ ksPot (ksRank lt n a0) a n < ksPot (ksRank lt n a0) g n) ∧
      (sw' = false → g = a ∧ ∀ k, i ≤ k → k < e → lt (a (k + gap)) (a k) = false) := by
  intro d
  induction d with
  | zero =>
    intro i a sw hd hs hr
    refine ⟨a, sw, ?_, RIn.refl _ _ _, le_refl _, fun h => .inl h, fun _ => ⟨rfl, fun k h1 h2 => by omega⟩⟩
    rw [ksCombPass, if_neg (by omega)]; rfl
  | succ d ih =>
    intro i a sw hd hs hr
    rw [ksCombPass]
    by_cases hi : i < e
    · rw [if_pos hi, ltAt_ok (by omega) (by omega)]
      simp only [Res.ok_bind]
      cases hc : lt (a (i + gap)) (a i)
      · simp only [Bool.false_eq_true, if_false]
        obtain ⟨g, sw', e1, r, p, q, w⟩ := ih (i + 1) a sw (by omega) (by omega) hr
        refine ⟨g, sw', e1, r, p, q, fun h => ⟨(w h).1, fun k h1 h2 => ?_⟩⟩
        rcases Nat.lt_or_ge i k with h | h
        · exact (w ‹_›).2 k (by omega) h2
        · have : k = i := by omega
          subst this; exact hc
      · simp only [if_true]
        have hg : 0 < gap := by
          rcases Nat.eq_zero_or_pos gap with h | h
          · subst h; rw [Nat.add_zero, wo.irrefl] at hc; exact absurd hc (by decide)
          · exact h
        rw [exch_ok (by omega) (by omega)]
        simp only [Res.ok_bind]
        have hx : ∃ k, k < n ∧ a (i + gap) = a0 k := by
          obtain ⟨k, _, h2, h3⟩ := hr.src (i := i + gap) (by omega) (by omega)
          exact ⟨k, h2, h3⟩
        have hp := ksPot_swp (n := n) (ρ := ksRank lt n a0) (a := a) (i := i) (j := i + gap) (by omega) (by omega)
          (ksRank_lt wo hx hc)
        obtain ⟨g, sw', e1, r, p, q, w⟩ := ih (i + 1) (swp a i (i + gap)) true (by omega) (by omega)
          (hr.trans (RIn.swp a (by omega) (by omega) (by omega) (by omega)))
        refine ⟨g, sw', e1, (RIn.swp a (by omega) (by omega) (by omega) (by omega)).trans r, by omega,
          fun _ => .inr (by omega), fun h => ?_⟩
        -- an exchange cannot be forgotten
        exfalso
        have hw := (w h).1
        rw [hw] at e1
        have : ∀ (d' i' : Nat) (b b' : Arr α), e - i' ≤ d' →
            ksCombPass lt n gap e b i' true ≠ .ok (b', false) := by
          intro d'
          induction d' with
          | zero =>
            intro i' b b' hd' hcon
            rw [ksCombPass, if_neg (by omega)] at hcon
            simp at hcon
          | succ d' ih' =>
            intro i' b b' hd' hcon
            rw [ksCombPass] at hcon
            by_cases hi' : i' < e
            · rw [if_pos hi', ltAt_ok (by omega) (by omega)] at hcon
              simp only [Res.ok_bind] at hcon
              split at hcon
              · rw [exch_ok (by omega) (by omega)] at hcon
                exact ih' (i' + 1) _ _ (by omega) hcon
              · exact ih' (i' + 1) _ _ (by omega) hcon
            · rw [if_neg hi'] at hcon
              simp at hcon
        rw [h] at e1
        exact this (e - (i + 1)) _ _ _ (le_refl _) e1
    · rw [if_neg hi]
      exact ⟨a, sw, rfl, RIn.refl _ _ _, le_refl _, fun h => .inl h, fun _ => ⟨rfl, fun k h1 h2 => by omega⟩⟩

theorem ksGap_less {shrink : Nat → Nat} (hs : Shrinks shrink) {g : Nat} (hg : 2 < g) : ksGap shrink g < g := by
  unfold ksGap
  have h1 := hs.less g hg
  have h2 := hs.eleven g
  rw [if_pos hg]
  split <;> omega

theorem ksGap_le {shrink : Nat → Nat} (hs : Shrinks shrink) (g : Nat) : ksGap shrink g ≤ g := by
  by_cases h : 2 < g
  · exact le_of_lt (ksGap_less hs h)
  · rw [ksGap, if_neg h]

theorem ksRank_le (lt : α → α → Bool) (n : Nat) (a : Arr α) (x : α) : ksRank lt n a x ≤ n := by
  have := List.countP_le_length (p := fun k => lt (a k) x) (l := List.range n)
  simpa [ksRank] using this

theorem ksCombLoop_spec {shrink : Nat → Nat} (hsh : Shrinks shrink) {lt : α → α → Bool} (wo : WeakOrder lt)
    {n s len : Nat} {a0 : Arr α} (hl : s + len ≤ n) : ∀ (d1 gap : Nat), gap ≤ d1 → ∀ (d2 : Nat) (a : Arr α),
    gap ≤ len → RIn 0 n a0 a →
    n * (n * n) - ksPot (ksRank lt n a0) a n ≤ d2 →
    ∃ g gap', ksCombLoop shrink lt n s len a gap = .ok (g, gap') ∧ RIn s (s + len) a g ∧
      (gap' = 1 → SortedIn lt s (s + len) g) := by
  have hpot : ∀ b : Arr α, RIn 0 n a0 b → ksPot (ksRank lt n a0) b n ≤ n * (n * n) := by
    intro b _
    exact ksPot_le (le_refl _) (fun i _ => ksRank_le _ _ _ _)
  intro d1
  induction d1 with
  | zero =>
    intro gap hg d2 a hgl hr hd2
    have : gap = 0 := by omega
    subst this
    rw [ksCombLoop, if_neg (by simp [ksGap])]
    have hg0 : ksGap shrink 0 = 0 := by simp [ksGap]
    rw [hg0]
    obtain ⟨g, sw', e1, r, p, q, w⟩ := ksCombPass_spec wo (gap := 0) (s := s) (e := s + len) (by omega) len s a false
      (by omega) (le_refl _) hr
    have hsw : sw' = false := by
      cases hsw : sw'
      · rfl
      · exfalso
        have : ∀ (d' i' : Nat), s + len - i' ≤ d' →
            ksCombPass lt n 0 (s + len) a i' false = .ok (a, false) := by
          intro d'
          induction d' with
          | zero => intro i' h; rw [ksCombPass, if_neg (by omega)]; rfl
          | succ d' ih =>
            intro i' h
            rw [ksCombPass]
            by_cases hi : i' < s + len
            · rw [if_pos hi, ltAt_ok (by omega) (by omega), Nat.add_zero, wo.irrefl]
              simpa using ih (i' + 1) (by omega)
            · rw [if_neg hi]; rfl
        rw [this len s (by omega), hsw] at e1
        simp at e1
    rw [Nat.sub_zero, e1, hsw]
    simp only [Res.ok_bind, Bool.false_eq_true, false_or]
    rw [if_neg (by omega)]
    exact ⟨g, 0, rfl, r, by omega⟩
  | succ d1 ih1 =>
    intro gap hg d2
    induction d2 with
    | zero =>
      intro a hgl hr hd2
      have hle := ksGap_le hsh gap
      rw [ksCombLoop, if_neg (by omega)]
      obtain ⟨g, sw', e1, r, p, q, w⟩ := ksCombPass_spec wo (gap := ksGap shrink gap) (s := s)
        (e := s + len - ksGap shrink gap) (by omega) len s a false (by omega) (le_refl _) hr
      rw [e1]
      simp only [Res.ok_bind]
      have r' : RIn s (s + len) a g := r.mono (le_refl _) (by omega)
      by_cases h2 : 2 < ksGap shrink gap
      · rw [if_pos (.inr h2)]
        have hlt : ksGap shrink gap < gap := ksGap_less hsh (by omega)
        obtain ⟨g', gap', e2, r2, so⟩ := ih1 (ksGap shrink gap) (by omega)
          (n * (n * n) - ksPot (ksRank lt n a0) g n) g (by omega)
          (hr.trans (r'.mono (by omega) (by omega))) (le_refl _)
        exact ⟨g', gap', e2, r'.trans r2, so⟩
      · cases hsw : sw'
        · rw [if_neg (by simp; omega)]
          refine ⟨g, _, rfl, r', fun h1 => ?_⟩
          obtain ⟨w1, w2⟩ := w hsw
          subst w1
          rw [h1] at w2
          exact SortedIn.of_adj wo (fun i h3 h4 => w2 i h3 (by omega))
        · exfalso
          rcases q hsw with h | h
          · exact absurd h (by decide)
          · have := hpot g (hr.trans (r'.mono (by omega) (by omega)))
            omega
    | succ d2 ih2 =>
      intro a hgl hr hd2
      have hle := ksGap_le hsh gap
      rw [ksCombLoop, if_neg (by omega)]
      obtain ⟨g, sw', e1, r, p, q, w⟩ := ksCombPass_spec wo (gap := ksGap shrink gap) (s := s)
        (e := s + len - ksGap shrink gap) (by omega) len s a false (by omega) (le_refl _) hr
      rw [e1]
      simp only [Res.ok_bind]
      have r' : RIn s (s + len) a g := r.mono (le_refl _) (by omega)
      have hr' := hr.trans (r'.mono (by omega) (by omega : s + len ≤ n))
      rcases Nat.lt_or_ge (ksGap shrink gap) gap with hlt | hge
      · by_cases hc : sw' = true ∨ 2 < ksGap shrink gap
        · rw [if_pos hc]
          obtain ⟨g', gap', e2, r2, so⟩ := ih1 (ksGap shrink gap) (by omega)
            (n * (n * n) - ksPot (ksRank lt n a0) g n) g (by omega) hr' (le_refl _)
          exact ⟨g', gap', e2, r'.trans r2, so⟩
        · rw [if_neg hc]
          refine ⟨g, _, rfl, r', fun h1 => ?_⟩
          obtain ⟨w1, w2⟩ := w (by simpa using fun h => hc (.inl h))
          subst w1
          rw [h1] at w2
          exact SortedIn.of_adj wo (fun i h3 h4 => w2 i h3 (by omega))
      · have heq : ksGap shrink gap = gap := by omega
        have hg2 : ¬ 2 < gap := fun h => by have := ksGap_less hsh h; omega
        rw [heq] at w ⊢
        cases hsw : sw'
        · rw [if_neg (by simp; omega)]
          refine ⟨g, _, rfl, r', fun h1 => ?_⟩
          obtain ⟨w1, w2⟩ := w hsw
          subst w1
          rw [h1] at w2
          exact SortedIn.of_adj wo (fun i h3 h4 => w2 i h3 (by omega))
        · rw [if_pos (.inl rfl)]
          have hgr : ksPot (ksRank lt n a0) a n < ksPot (ksRank lt n a0) g n := by
            rcases q hsw with h | h
            · exact absurd h (by decide)
            · exact h
          have := hpot g hr'
          obtain ⟨g', gap', e2, r2, so⟩ := ih2 g (by omega) hr' (by omega)
          exact ⟨g', gap', e2, r'.trans r2, so⟩

theorem ksCombsort_spec {shrink : Nat → Nat} (hsh : Shrinks shrink) {lt : α → α → Bool} (wo : WeakOrder lt)
    {n s len : Nat} (hl : s + len ≤ n) (a : Arr α) :
    ∃ g, ksCombsort shrink lt n s len a = .ok g ∧ RIn s (s + len) a g ∧ SortedIn lt s (s + len) g := by
  obtain ⟨g, gap', e, r, so⟩ := ksCombLoop_spec hsh wo hl len len (le_refl _) _ a (le_refl _) (RIn.refl 0 n a)
    (le_refl _)
  unfold ksCombsort
  rw [e]
  simp only [Res.ok_bind]
  by_cases h : gap' = 1
  · rw [if_neg (by simpa using h)]
    exact ⟨g, rfl, r, so h⟩
  · rw [if_pos h]
    obtain ⟨g', e', r', _, so'⟩ := ksInsertsort_spec lt (n := n) (s := s) (t := s + len) hl g
    exact ⟨g', e', r.trans r', so' wo⟩

end Minilib

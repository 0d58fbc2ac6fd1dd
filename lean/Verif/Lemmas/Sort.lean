import Verif.Model.Sort
import Mathlib.Data.List.Perm.Basic
import Mathlib.Data.List.Nodup
import Mathlib.Logic.Equiv.Basic
import Mathlib.Tactic.Ring
import Mathlib.Tactic.Linarith
/-
Lemmas about qsort and bsearch.
-/

set_option autoImplicit false

namespace Minilib
open Mem

/-! ### bytes -/

theorem loadBytes_holds {m : Mem} {a : Nat} {l : List Byte} (h : m.Holds a l) :
    loadBytes m a l.length = .ok l := by
  induction l generalizing a with
  | nil => rfl
  | cons b l ih =>
    rw [holds_cons] at h
    simp only [List.length_cons, loadBytes]
    rw [load_some h.1]
    simp only [Res.ok_bind]
    rw [ih h.2]; rfl

theorem storeBytes_mapped {m : Mem} {a : Nat} {l : List Byte} (h : m.Mapped a l.length) :
    storeBytes m a l = .ok (m.write a l) := by
  induction l generalizing m a with
  | nil => simp [storeBytes]
  | cons b l ih =>
    rw [List.length_cons, mapped_succ] at h
    obtain ⟨⟨c, hc⟩, h2⟩ := h
    rw [storeBytes, store_some hc]
    simp only [Res.ok_bind]
    rw [ih (h2.upd _ _), write_cons]

theorem xorSwap_eq (x y : Byte) : xorSwap x y = (y, x) := by
  unfold xorSwap
  have h1 : x ^^^ (y ^^^ x) = y := by
    rw [BitVec.xor_comm y x, ← BitVec.xor_assoc, BitVec.xor_self, BitVec.zero_xor]
  simp only [h1]
  have h2 : y ^^^ x ^^^ y = x := by
    rw [BitVec.xor_comm y x, BitVec.xor_assoc, BitVec.xor_self, BitVec.xor_zero]
  rw [h2]

theorem zip_swap1 (x y : List Byte) (h : x.length = y.length) :
    (x.zip y).map (fun p => (xorSwap p.1 p.2).1) = y := by
  simp only [xorSwap_eq]
  exact List.map_snd_zip (by omega)

theorem zip_swap2 (x y : List Byte) (h : x.length = y.length) :
    (x.zip y).map (fun p => (xorSwap p.1 p.2).2) = x := by
  simp only [xorSwap_eq]
  exact List.map_fst_zip (by omega)

theorem write_comm_disj {m : Mem} {a b : Nat} {x y : List Byte}
    (hd : a + x.length ≤ b ∨ b + y.length ≤ a) :
    (m.write a x).write b y = (m.write b y).write a x := by
  funext c
  by_cases h1 : a ≤ c ∧ c < a + x.length
  · obtain ⟨i, rfl⟩ : ∃ i, c = a + i := ⟨c - a, by omega⟩
    rw [write_outside _ _ _ _ (by omega), write_inside _ _ _ _ (by omega), write_inside _ _ _ _ (by omega)]
  · rw [write_outside _ a x c (by omega)]
    by_cases h2 : b ≤ c ∧ c < b + y.length
    · obtain ⟨i, rfl⟩ : ∃ i, c = b + i := ⟨c - b, by omega⟩
      rw [write_inside _ _ _ _ (by omega), write_inside _ _ _ _ (by omega)]
    · rw [write_outside _ b y c (by omega), write_outside _ b y c (by omega),
        write_outside _ a x c (by omega)]

theorem swapLoop_eq {x y : List Byte} (hl : x.length = y.length) :
    ∀ {m : Mem} {a b : Nat}, m.Holds a x → m.Holds b y → (a + x.length ≤ b ∨ b + y.length ≤ a) →
      swapLoop m a b x.length = .ok ((m.write a y).write b x) := by
  induction x generalizing y with
  | nil => intro m a b _ _ _
           have : y = [] := by simpa using hl.symm
           simp [swapLoop, this]
  | cons x xs ih =>
    intro m a b ha hb hd
    match y, hl with
    | y :: ys, hl =>
    simp only [List.length_cons] at hl hd
    rw [holds_cons] at ha hb
    have hne : a ≠ b := by omega
    simp only [List.length_cons, swapLoop]
    rw [load_some ha.1]
    simp only [Res.ok_bind]
    rw [load_some hb.1]
    simp only [Res.ok_bind, xorSwap_eq]
    rw [store_some hb.1]
    simp only [Res.ok_bind]
    rw [store_some (c := x) (by rw [upd_ne hne]; exact ha.1)]
    simp only [Res.ok_bind]
    rw [ih (y := ys) (by omega) ((ha.2.upd _ (by omega)).upd _ (by omega))
      ((hb.2.upd _ (by omega)).upd _ (by omega)) (by omega)]
    congr 1
    rw [write_cons, write_cons]
    have e1 : ∀ (m : Mem) (c : Nat) (l : List Byte), (c < a + 1 ∨ a + 1 + l.length ≤ c) → ∀ v,
        (m.upd c v).write (a + 1) l = (m.write (a + 1) l).upd c v := by
      intro m c l hc v
      rw [← write_singleton, ← write_singleton, write_comm_disj (by simp; omega)]
    rw [e1 (m.upd b x) a ys (by omega), e1 m b ys (by omega), e1 m a ys (by omega)]
    congr 1
    funext c
    unfold Mem.upd
    split <;> split <;> first | rfl | omega

theorem swap_eq {m : Mem} {a b : Nat} {x y : List Byte} (hl : x.length = y.length) (ha : m.Holds a x)
    (hb : m.Holds b y) (hd : a + x.length ≤ b ∨ b + y.length ≤ a) :
    swap m a b x.length = .ok ((m.write a y).write b x) := by
  have hword : swapWord m a b x.length = .ok ((m.write a y).write b x) := by
    unfold swapWord
    rw [loadBytes_holds ha]
    simp only [Res.ok_bind]
    rw [hl, loadBytes_holds hb]
    simp only [Res.ok_bind]
    rw [zip_swap1 _ _ hl, zip_swap2 _ _ hl, storeBytes_mapped (by rw [hl]; exact hb.mapped)]
    simp only [Res.ok_bind]
    rw [storeBytes_mapped (by rw [← hl]; exact (ha.mapped).write _ _), write_comm_disj (by omega)]
  unfold swap
  by_cases h4 : x.length = 4
  · rw [if_pos h4, ← h4]; exact hword
  · rw [if_neg h4]
    by_cases h8 : x.length = 8
    · rw [if_pos h8, ← h8]; exact hword
    · rw [if_neg h8]; exact swapLoop_eq hl ha hb hd

/-! ### arrays -/

/-- Memory `m` with an array of `n` elements of width `w` at `base`, element `i` being `f i`. -/
def arrMem (m : Mem) (base w n : Nat) (f : Nat → List Byte) : Mem := fun a =>
  if base ≤ a ∧ a < base + n * w then (f ((a - base) / w))[(a - base) % w]? else m a

theorem arr_index {w i r : Nat} (hr : r < w) : (i * w + r) / w = i ∧ (i * w + r) % w = r := by
  constructor
  · rw [Nat.mul_comm, Nat.mul_add_div (by omega), Nat.div_eq_of_lt hr]; simp
  · rw [Nat.mul_comm, Nat.mul_add_mod, Nat.mod_eq_of_lt hr]

theorem arr_lt {w n i r : Nat} (hi : i < n) (hr : r < w) : i * w + r < n * w := by
  have : (i + 1) * w ≤ n * w := Nat.mul_le_mul_right _ hi
  rw [Nat.succ_mul] at this
  omega

theorem arrMem_elem {m : Mem} {base w n : Nat} {f : Nat → List Byte} {i r : Nat} (hi : i < n) (hr : r < w) :
    arrMem m base w n f (base + i * w + r) = (f i)[r]? := by
  have h1 := @arr_index w i r hr
  have h2 := arr_lt hi hr
  unfold arrMem
  rw [if_pos (by omega), show base + i * w + r - base = i * w + r by omega, h1.1, h1.2]

theorem arrMem_holds {m : Mem} {base w n : Nat} {f : Nat → List Byte} {i : Nat} (hi : i < n)
    (hf : (f i).length = w) : (arrMem m base w n f).Holds (base + i * w) (f i) := by
  intro r hr
  rw [arrMem_elem hi (by omega)]
  simp [hr]

/-- `f` with the elements `i` and `k` exchanged. -/
def swapAt (f : Nat → List Byte) (i k : Nat) : Nat → List Byte := fun x => f (Equiv.swap i k x)

theorem arr_disj {w i k : Nat} (h : i < k) : i * w + w ≤ k * w := by
  have : (i + 1) * w ≤ k * w := Nat.mul_le_mul_right _ h
  rw [Nat.succ_mul] at this
  exact this

theorem arrMem_swap {m : Mem} {base w n : Nat} {f : Nat → List Byte} {i k : Nat} (hik : i < k)
    (hk : k < n) (hf : ∀ i, (f i).length = w) :
    swap (arrMem m base w n f) (base + i * w) (base + k * w) w
      = .ok (arrMem m base w n (swapAt f i k)) := by
  have hd := @arr_disj w i k hik
  have := @swap_eq (arrMem m base w n f) (base + i * w) (base + k * w) (f i) (f k)
    (by rw [hf, hf]) (arrMem_holds (by omega) (hf i)) (arrMem_holds hk (hf k)) (by rw [hf]; omega)
  rw [hf] at this
  rw [this]
  congr 1
  funext c
  by_cases hc : base ≤ c ∧ c < base + n * w
  · obtain ⟨q, r, hr, rfl⟩ : ∃ q r, r < w ∧ c = base + q * w + r := by
      have hw : 0 < w := by
        rcases Nat.eq_zero_or_pos w with h | h
        · subst h; omega
        · exact h
      refine ⟨(c - base) / w, (c - base) % w, Nat.mod_lt _ hw, ?_⟩
      have := Nat.div_add_mod (c - base) w
      rw [Nat.mul_comm] at this
      omega
    have hq : q < n := by
      by_contra h
      have : n * w ≤ q * w := Nat.mul_le_mul_right _ (by omega)
      omega
    rw [arrMem_elem hq hr]
    unfold swapAt
    by_cases hqk : q = k
    · subst hqk
      rw [write_inside _ _ _ _ (by rw [hf]; exact hr), Equiv.swap_apply_right]
      simp [hf, hr]
    · have hqk' : base + q * w + r < base + k * w ∨ base + k * w + (f i).length ≤ base + q * w + r := by
        rw [hf]
        rcases Nat.lt_or_ge q k with h | h
        · have := @arr_disj w q k h; omega
        · have := @arr_disj w k q (by omega); omega
      rw [write_outside _ _ _ _ hqk']
      by_cases hqi : q = i
      · subst hqi
        rw [write_inside _ _ _ _ (by rw [hf]; exact hr), Equiv.swap_apply_left]
        simp [hf, hr]
      · have hqi' : base + q * w + r < base + i * w ∨ base + i * w + (f k).length ≤ base + q * w + r := by
          rw [hf]
          rcases Nat.lt_or_ge q i with h | h
          · have := @arr_disj w q i h; omega
          · have := @arr_disj w i q (by omega); omega
        rw [write_outside _ _ _ _ hqi', Equiv.swap_apply_of_ne_of_ne hqi hqk, arrMem_elem hq hr]
  · have h1 := @arr_disj w i n (by omega)
    have h2 := @arr_disj w k n hk
    have h3 : i * w + w ≤ k * w := hd
    rw [write_outside _ _ _ _ (by rw [hf]; omega), write_outside _ _ _ _ (by rw [hf]; omega)]
    unfold arrMem
    rw [if_neg hc, if_neg hc]

/-- `g` is `f` with the elements below `n` rearranged. -/
def Rearr (n : Nat) (f g : Nat → List Byte) : Prop :=
  ∃ σ : Equiv.Perm Nat, (∀ i, n ≤ i → σ i = i) ∧ ∀ i, g i = f (σ i)

theorem Rearr.refl (n : Nat) (f : Nat → List Byte) : Rearr n f f := ⟨Equiv.refl _, by simp, by simp⟩

theorem Rearr.trans {n : Nat} {f g h : Nat → List Byte} (h1 : Rearr n f g) (h2 : Rearr n g h) :
    Rearr n f h := by
  obtain ⟨σ, s1, s2⟩ := h1
  obtain ⟨τ, t1, t2⟩ := h2
  refine ⟨τ.trans σ, fun i hi => ?_, fun i => ?_⟩
  · rw [Equiv.trans_apply, t1 i hi, s1 i hi]
  · rw [t2, s2]; rfl

theorem Rearr.swapAt {n i k : Nat} (hi : i < n) (hk : k < n) (f : Nat → List Byte) :
    Rearr n f (swapAt f i k) :=
  ⟨Equiv.swap i k, fun j hj => Equiv.swap_apply_of_ne_of_ne (by omega) (by omega), fun _ => rfl⟩

theorem Rearr.length {n w : Nat} {f g : Nat → List Byte} (h : Rearr n f g) (hf : ∀ i, (f i).length = w) :
    ∀ i, (g i).length = w := by
  obtain ⟨σ, _, s2⟩ := h
  intro i; rw [s2]; exact hf _

theorem Rearr.perm {n : Nat} {f g : Nat → List Byte} (h : Rearr n f g) :
    ((List.range n).map g).Perm ((List.range n).map f) := by
  obtain ⟨σ, s1, s2⟩ := h
  have hg : (List.range n).map g = ((List.range n).map σ).map f := by
    rw [List.map_map]; apply List.map_congr_left; intro i _; exact s2 i
  rw [hg]
  apply List.Perm.map
  rw [List.perm_ext_iff_of_nodup (List.nodup_range.map σ.injective) List.nodup_range]
  intro a
  simp only [List.mem_map, List.mem_range]
  constructor
  · rintro ⟨b, hb, rfl⟩
    by_contra hge
    have := s1 (σ b) (by omega)
    have := σ.injective this
    omega
  · intro ha
    refine ⟨σ.symm a, ?_, by simp⟩
    by_contra hge
    have := s1 (σ.symm a) (by omega)
    rw [Equiv.apply_symm_apply] at this
    omega

/-! ### qsort -/

/-- `comp x y ≤ 0` is a total preorder. -/
structure TotalPre (comp : List Byte → List Byte → Int) : Prop where
  total : ∀ x y, comp x y ≤ 0 ∨ comp y x ≤ 0
  trans : ∀ x y z, comp x y ≤ 0 → comp y z ≤ 0 → comp x z ≤ 0

/-- The inner loop rearranges the elements; with gap 1 it inserts element `j + 1` into the sorted
elements below. -/
theorem qsortInner_spec {comp : List Byte → List Byte → Int} {base w n g : Nat} {m : Mem} (hw : 0 < w)
    (hg : 0 < g) (j : Nat) : ∀ {f : Nat → List Byte}, (∀ i, (f i).length = w) → j + g < n →
      ∃ f', qsortInner comp base w (w * g) (arrMem m base w n f) (j * w) = .ok (arrMem m base w n f') ∧
        Rearr n f f' ∧ (TotalPre comp → g = 1 → ∀ i, j + 1 ≤ i → i < n →
          (∀ p q, p < q → q ≤ i → q ≠ j + 1 → comp (f p) (f q) ≤ 0) →
          (∀ p q, p < q → q ≤ i → comp (f' p) (f' q) ≤ 0) ∧ ∀ q, i < q → f' q = f q) := by
  induction j using Nat.strongRecOn with
  | _ j ih =>
    intro f hf hj
    have eb : base + j * w + w * g = base + (j + g) * w := by ring
    have hx : loadBytes (arrMem m base w n f) (base + j * w) w = .ok (f j) := by
      have := loadBytes_holds (@arrMem_holds m base w n f j (by omega) (hf j))
      rwa [hf] at this
    have hy : loadBytes (arrMem m base w n f) (base + (j + g) * w) w = .ok (f (j + g)) := by
      have := loadBytes_holds (@arrMem_holds m base w n f (j + g) hj (hf _))
      rwa [hf] at this
    rw [qsortInner, hx]
    simp only [Res.ok_bind]
    rw [eb, hy]
    simp only [Res.ok_bind]
    by_cases hc : comp (f j) (f (j + g)) ≤ 0
    · rw [if_pos hc]
      refine ⟨f, rfl, Rearr.refl n f, ?_⟩
      intro hcmp hg1 i hi hin hs
      subst hg1
      refine ⟨fun p q hpq hq => ?_, fun q _ => rfl⟩
      by_cases hqj : q = j + 1
      · subst hqj
        rcases Nat.lt_or_ge p j with hp | hp
        · exact hcmp.trans _ _ _ (hs p j hp (by omega) (by omega)) hc
        · rw [show p = j by omega]; exact hc
      · exact hs p q hpq hq hqj
    · rw [if_neg hc, arrMem_swap (by omega) hj hf]
      simp only [Res.ok_bind]
      have hf' : ∀ i, (swapAt f j (j + g) i).length = w := fun i => hf _
      have hsw : TotalPre comp → g = 1 → ∀ i, j + 1 ≤ i → i < n →
          (∀ p q, p < q → q ≤ i → q ≠ j + 1 → comp (f p) (f q) ≤ 0) →
          (∀ p q, p < q → q ≤ i → q ≠ j → comp (swapAt f j (j + g) p) (swapAt f j (j + g) q) ≤ 0) ∧
          ∀ q, i < q → swapAt f j (j + g) q = f q := by
        intro hcmp hg1 i hi hin hs
        subst hg1
        unfold swapAt
        have hle : comp (f (j + 1)) (f j) ≤ 0 := (hcmp.total _ _).resolve_left hc
        refine ⟨fun p q hpq hq hqj => ?_, fun q hq => ?_⟩
        · by_cases hq1 : q = j + 1
          · subst hq1
            rw [Equiv.swap_apply_right]
            by_cases hpj : p = j
            · subst hpj; rw [Equiv.swap_apply_left]; exact hle
            · rw [Equiv.swap_apply_of_ne_of_ne hpj (by omega)]
              exact hs p j (by omega) (by omega) (by omega)
          · rw [Equiv.swap_apply_of_ne_of_ne hqj hq1]
            by_cases hpj : p = j
            · subst hpj; rw [Equiv.swap_apply_left]; exact hs (p + 1) q (by omega) hq hq1
            · by_cases hpj1 : p = j + 1
              · subst hpj1; rw [Equiv.swap_apply_right]; exact hs j q (by omega) hq hq1
              · rw [Equiv.swap_apply_of_ne_of_ne hpj hpj1]; exact hs p q hpq hq hq1
        · rw [Equiv.swap_apply_of_ne_of_ne (by omega) (by omega)]
      have hjlt : j * w < w * g ↔ j < g := by
        rw [Nat.mul_comm w g]
        exact Nat.mul_lt_mul_right hw
      by_cases hjg : j < g
      · rw [if_pos (hjlt.2 hjg)]
        refine ⟨_, rfl, Rearr.swapAt (by omega) hj f, ?_⟩
        intro hcmp hg1 i hi hin hs
        obtain ⟨s1, s2⟩ := hsw hcmp hg1 i hi hin hs
        refine ⟨fun p q hpq hq => s1 p q hpq hq (by omega), s2⟩
      · rw [if_neg (fun h => hjg (hjlt.1 h)), show j * w - w * g = (j - g) * w by
          rw [Nat.mul_comm w g, Nat.sub_mul]]
        obtain ⟨f', e, r, s⟩ := ih (j - g) (by omega) hf' (by omega)
        refine ⟨f', e, (Rearr.swapAt (by omega) hj f).trans r, ?_⟩
        intro hcmp hg1 i hi hin hs
        obtain ⟨s1, s2⟩ := hsw hcmp hg1 i hi hin hs
        obtain ⟨t1, t2⟩ := s hcmp hg1 i (by omega) hin
          (fun p q hpq hq hqj => s1 p q hpq hq (by omega))
        exact ⟨t1, fun q hq => by rw [t2 q hq, s2 q hq]⟩

/-- One pass from element `i` on. -/
theorem qsortPass_spec {comp : List Byte → List Byte → Int} {base w n g : Nat} {m : Mem} (hw : 0 < w)
    (hg : 0 < g) (k : Nat) : ∀ {i : Nat} {f : Nat → List Byte}, (∀ i, (f i).length = w) → g ≤ i →
      n ≤ i + k →
      ∃ f', qsortPass comp base w (w * g) (w * n) (arrMem m base w n f) (w * i)
          = .ok (arrMem m base w n f') ∧ Rearr n f f' ∧
        (TotalPre comp → g = 1 → (∀ p q, p < q → q < i → comp (f p) (f q) ≤ 0) →
          ∀ p q, p < q → q < n → comp (f' p) (f' q) ≤ 0) := by
  induction k with
  | zero =>
    intro i f hf hi hk
    refine ⟨f, ?_, Rearr.refl n f, fun _ _ hs p q hpq hq => hs p q hpq (by omega)⟩
    rw [qsortPass, if_neg (Nat.not_lt.2 (Nat.mul_le_mul_left _ (by omega)))]; rfl
  | succ k ih =>
    intro i f hf hi hk
    by_cases hin : i < n
    · have hlt : w * i < w * n := Nat.mul_lt_mul_of_pos_left hin hw
      obtain ⟨f1, e1, r1, s1⟩ := @qsortInner_spec comp base w n g m hw hg (i - g) f hf (by omega)
      obtain ⟨f2, e2, r2, s2⟩ := @ih (i + 1) f1 (r1.length hf) (by omega) (by omega)
      refine ⟨f2, ?_, r1.trans r2, ?_⟩
      · rw [qsortPass, if_pos hlt, show w * i - w * g = (i - g) * w by
          rw [← Nat.mul_sub, Nat.mul_comm], e1]
        simp only [Res.ok_bind]
        rw [show w * i + w = w * (i + 1) by ring, e2]
      · intro hcmp hg1 hs
        apply s2 hcmp hg1
        intro p q hpq hq
        have := (s1 hcmp hg1 i (by omega) hin (fun p q hpq hq hqi => hs p q hpq (by omega))).1
        exact this p q hpq (by omega)
    · refine ⟨f, ?_, Rearr.refl n f, fun _ _ hs p q hpq hq => hs p q hpq (by omega)⟩
      rw [qsortPass, if_neg (Nat.not_lt.2 (Nat.mul_le_mul_left _ (by omega)))]; rfl

/-- The gap sequence 1, 4, 13, 40, … -/
def gapSeq : Nat → Nat
  | 0 => 1
  | k + 1 => 3 * gapSeq k + 1

theorem gapSeq_pos (k : Nat) : 1 ≤ gapSeq k := by cases k <;> simp [gapSeq]

theorem gapSeq_div (k : Nat) : gapSeq (k + 1) / 3 = gapSeq k := by simp only [gapSeq]; omega

theorem qsortGap_spec {n : Nat} (hn : n ≤ 1152921504606846976) : ∀ (d : Nat) {k gap : Nat},
    n - gap ≤ d → gap + 1 = gapSeq k → ∃ k', qsortGap n gap = .ok (gapSeq k') ∧ n ≤ gapSeq k' := by
  intro d
  induction d with
  | zero =>
    intro k gap hd hg
    refine ⟨k, ?_, by omega⟩
    rw [qsortGap, if_neg (by omega), ← hg]; rfl
  | succ d ih =>
    intro k gap hd hg
    by_cases h : gap + 1 < n
    · rw [qsortGap, if_pos h, ckLong, if_pos (by omega)]
      simp only [Res.ok_bind]
      exact ih (k := k + 1) (by omega) (by simp only [gapSeq]; omega)
    · exact ⟨k, by rw [qsortGap, if_neg h, ← hg]; rfl, by omega⟩

theorem qsortGaps_spec {comp : List Byte → List Byte → Int} {base w n : Nat} {m : Mem} (hw : 0 < w)
    (k : Nat) : ∀ {f : Nat → List Byte}, (∀ i, (f i).length = w) →
      ∃ f', qsortGaps comp base w (w * n) (arrMem m base w n f) (gapSeq k)
          = .ok (arrMem m base w n f') ∧ Rearr n f f' ∧
        (TotalPre comp → (0 < k ∨ n ≤ 1) → ∀ p q, p < q → q < n → comp (f' p) (f' q) ≤ 0) := by
  induction k with
  | zero =>
    intro f hf
    refine ⟨f, ?_, Rearr.refl n f, fun _ h p q _ _ => by omega⟩
    rw [qsortGaps, if_neg (by simp [gapSeq])]; rfl
  | succ k ih =>
    intro f hf
    have hpos := gapSeq_pos k
    obtain ⟨f1, e1, r1, s1⟩ := @qsortPass_spec comp base w n (gapSeq k) m hw hpos n (gapSeq k) f hf
      (le_refl _) (by omega)
    obtain ⟨f2, e2, r2, s2⟩ := ih (r1.length hf)
    refine ⟨f2, ?_, r1.trans r2, ?_⟩
    · rw [qsortGaps, gapSeq_div, if_pos (by omega), e1]
      simp only [Res.ok_bind]
      exact e2
    · intro hcmp _
      rcases Nat.eq_zero_or_pos k with h | h
      · subst h
        have hs := s1 hcmp rfl (fun p q hpq hq => by simp [gapSeq] at hq; omega)
        have : arrMem m base w n f1 = arrMem m base w n f2 := by
          rw [qsortGaps, if_neg (by simp [gapSeq])] at e2
          simpa using e2
        intro p q hpq hq
        have elem : ∀ i, i < n → f2 i = f1 i := by
          intro i hi
          have l1 : (f1 i).length = w := r1.length hf i
          have l2 : (f2 i).length = w := r2.length (r1.length hf) i
          apply List.ext_getElem (by omega)
          intro r hr _
          have h3 := congrFun this (base + i * w + r)
          rw [arrMem_elem hi (by omega), arrMem_elem hi (by omega)] at h3
          simp only [List.getElem?_eq_getElem (show r < (f1 i).length by omega),
            List.getElem?_eq_getElem hr, Option.some.injEq] at h3
          exact h3.symm
        rw [elem p (by omega), elem q hq]
        exact hs p q hpq hq
      · exact s2 hcmp (Or.inl h)

/-! ### from lists to arrays -/

theorem arrMem_of_holds {m : Mem} {base w : Nat} {es : List (List Byte)} (hw : ∀ e ∈ es, e.length = w)
    (hh : m.Holds base es.flatten) :
    m = arrMem m base w es.length (fun i => es.getD i (List.replicate w 0#8)) := by
  have hlen : es.flatten.length = es.length * w := by
    rw [List.length_flatten]
    have : es.map List.length = es.map (fun _ => w) := List.map_congr_left hw
    rw [this]; simp
  have hget : ∀ (es : List (List Byte)), (∀ e ∈ es, e.length = w) → ∀ i r, i < es.length → r < w →
      es.flatten[i * w + r]? = (es.getD i (List.replicate w 0#8))[r]? := by
    intro es
    induction es with
    | nil => intro _ i r hi; simp at hi
    | cons e es ih =>
      intro hw i r hi hr
      have he : e.length = w := hw e (by simp)
      cases i with
      | zero =>
        simp only [List.flatten_cons, Nat.zero_mul, Nat.zero_add, List.getD_cons_zero]
        rw [List.getElem?_append_left (by omega)]
      | succ i =>
        simp only [List.flatten_cons, List.getD_cons_succ]
        rw [List.getElem?_append_right (by rw [Nat.succ_mul]; omega), he,
          show (i + 1) * w + r - w = i * w + r by rw [Nat.succ_mul]; omega]
        exact ih (fun e he => hw e (by simp [he])) i r (by simpa using hi) hr
  funext c
  by_cases hc : base ≤ c ∧ c < base + es.length * w
  · have hw0 : 0 < w := by
      rcases Nat.eq_zero_or_pos w with h | h
      · subst h; omega
      · exact h
    obtain ⟨q, r, hr, rfl⟩ : ∃ q r, r < w ∧ c = base + q * w + r := by
      refine ⟨(c - base) / w, (c - base) % w, Nat.mod_lt _ hw0, ?_⟩
      have := Nat.div_add_mod (c - base) w
      rw [Nat.mul_comm] at this
      omega
    have hq : q < es.length := by
      by_contra h
      have : es.length * w ≤ q * w := Nat.mul_le_mul_right _ (by omega)
      omega
    rw [arrMem_elem hq hr, ← hget es hw q r hq hr]
    have hlt := arr_lt hq hr
    have := hh (q * w + r) (by omega)
    rw [← Nat.add_assoc] at this
    rw [this, List.getElem?_eq_getElem (by omega)]
  · unfold arrMem; rw [if_neg hc]

theorem arrMem_eq_write {m : Mem} {base w n : Nat} {f : Nat → List Byte} (hf : ∀ i, (f i).length = w) :
    arrMem m base w n f = m.write base ((List.range n).map f).flatten := by
  have hl : ((List.range n).map f).length = n := by simp
  have hw : ∀ e ∈ (List.range n).map f, e.length = w := by
    intro e he
    simp only [List.mem_map, List.mem_range] at he
    obtain ⟨i, _, rfl⟩ := he
    exact hf i
  have := @arrMem_of_holds (m.write base ((List.range n).map f).flatten) base w ((List.range n).map f) hw
    (write_holds _ _ _)
  rw [this, hl]
  have hlen : ((List.range n).map f).flatten.length = n * w := by
    rw [List.length_flatten]
    have : ((List.range n).map f).map List.length = ((List.range n).map f).map (fun _ => w) :=
      List.map_congr_left hw
    rw [this, List.map_const', hl]; simp
  funext c
  unfold arrMem
  by_cases hc : base ≤ c ∧ c < base + n * w
  · rw [if_pos hc, if_pos hc]
    have hw0 : 0 < w := by
      rcases Nat.eq_zero_or_pos w with h | h
      · subst h; omega
      · exact h
    have : (c - base) / w < n := by
      rw [Nat.div_lt_iff_lt_mul hw0]; omega
    congr 1
    simp [this]
  · rw [if_neg hc, if_neg hc, write_outside _ _ _ _ (by omega)]

end Minilib

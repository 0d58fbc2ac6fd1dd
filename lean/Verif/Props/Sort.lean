import Verif.Lemmas.Sort
import Verif.Spec.Str
import Mathlib.Data.List.GetD
/-
C32 qsort, C33 bsearch.
-/

set_option autoImplicit false

namespace Minilib
open Mem Spec

/-! ### C32 -/

/-- The array stands in memory one element after the other. -/
def _root_.Spec.IsArray (m : Mem) (base w : Nat) (es : List (List Byte)) : Prop :=
  (∀ e ∈ es, e.length = w) ∧ m.Holds base es.flatten

/-- C32: for every array, every element width and every comparison that is a total preorder, qsort
terminates, touches only the array, and leaves there a sorted rearrangement of the elements. -/
theorem C32_qsort (comp : List Byte → List Byte → Int)
    (htotal : ∀ x y, comp x y ≤ 0 ∨ comp y x ≤ 0)
    (htrans : ∀ x y z, comp x y ≤ 0 → comp y z ≤ 0 → comp x z ≤ 0)
    (m : Mem) (base w : Nat) (es : List (List Byte)) (hw : 0 < w) (hes : IsArray m base w es)
    (hsize : w * es.length ≤ 2 ^ 60) :
    ∃ es' : List (List Byte), es'.Perm es ∧ es'.Pairwise (fun x y => comp x y ≤ 0) ∧
      qsort comp m base es.length w = .ok (m.write base es'.flatten) := by
  obtain ⟨he, hh⟩ := hes
  set f : Nat → List Byte := fun i => es.getD i (List.replicate w 0#8) with hfd
  have hf : ∀ i, (f i).length = w := by
    intro i
    rw [hfd]; dsimp only
    rcases Nat.lt_or_ge i es.length with h | h
    · rw [List.getD_eq_getElem _ _ h]; exact he _ (List.getElem_mem h)
    · rw [List.getD_eq_default _ _ h]; simp
  have hm := arrMem_of_holds he hh
  have hn : es.length ≤ 1152921504606846976 := by
    have : 1 * es.length ≤ w * es.length := Nat.mul_le_mul_right _ hw
    omega
  obtain ⟨k, ek, hk⟩ := qsortGap_spec hn es.length (k := 0) (gap := 0) (by omega) rfl
  obtain ⟨f', e, r, s⟩ := @qsortGaps_spec comp base w es.length m hw k f hf
  have hmapf : (List.range es.length).map f = es := by
    apply List.ext_getElem (by simp)
    intro i h1 h2
    simp [hfd, h2]
  refine ⟨(List.range es.length).map f', ?_, ?_, ?_⟩
  · have := r.perm
    rwa [hmapf] at this
  · have hs := s ⟨htotal, htrans⟩ (by
      rcases Nat.eq_zero_or_pos k with h | h
      · subst h; right; exact hk
      · left; exact h)
    rw [List.pairwise_map]
    exact List.pairwise_lt_range.imp_of_mem (fun {a b} ha hb hab => hs a b hab (by simpa using hb))
  · rw [qsort, ckLong, if_pos (by omega)]
    simp only [Res.ok_bind]
    rw [ek]
    simp only [Res.ok_bind]
    rw [← arrMem_eq_write (r.length hf), ← e]
    exact congrArg (fun x => qsortGaps comp base w (w * es.length) x (gapSeq k)) hm

/-- C32: whatever the comparison returns (even a contradictory order), qsort terminates and the array
holds the same elements. -/
theorem C32_qsort_any_comparison (comp : List Byte → List Byte → Int)
    (m : Mem) (base w : Nat) (es : List (List Byte)) (hw : 0 < w) (hes : IsArray m base w es)
    (hsize : w * es.length ≤ 2 ^ 60) :
    ∃ es' : List (List Byte), es'.Perm es ∧ qsort comp m base es.length w = .ok (m.write base es'.flatten) := by
  obtain ⟨he, hh⟩ := hes
  set f : Nat → List Byte := fun i => es.getD i (List.replicate w 0#8) with hfd
  have hf : ∀ i, (f i).length = w := by
    intro i
    rw [hfd]; dsimp only
    rcases Nat.lt_or_ge i es.length with h | h
    · rw [List.getD_eq_getElem _ _ h]; exact he _ (List.getElem_mem h)
    · rw [List.getD_eq_default _ _ h]; simp
  have hm := arrMem_of_holds he hh
  have hn : es.length ≤ 1152921504606846976 := by
    have : 1 * es.length ≤ w * es.length := Nat.mul_le_mul_right _ hw
    omega
  obtain ⟨k, ek, hk⟩ := qsortGap_spec hn es.length (k := 0) (gap := 0) (by omega) rfl
  obtain ⟨f', e, r, s⟩ := @qsortGaps_spec comp base w es.length m hw k f hf
  have hmapf : (List.range es.length).map f = es := by
    apply List.ext_getElem (by simp)
    intro i h1 h2
    simp [hfd, h2]
  refine ⟨(List.range es.length).map f', ?_, ?_⟩
  · have := r.perm
    rwa [hmapf] at this
  · rw [qsort, ckLong, if_pos (by omega)]
    simp only [Res.ok_bind]
    rw [ek]
    simp only [Res.ok_bind]
    rw [← arrMem_eq_write (r.length hf), ← e]
    exact congrArg (fun x => qsortGaps comp base w (w * es.length) x (gapSeq k)) hm

/-- Elements of two bytes, compared by their first byte. -/
def exComp (x y : List Byte) : Int := ((x.headD 0#8).toNat : Int) - ((y.headD 0#8).toNat : Int)

def exArr : List (List Byte) := [[3#8, 0#8], [1#8, 1#8], [2#8, 2#8], [1#8, 3#8], [0#8, 4#8]]

example : ∃ es' : List (List Byte), es'.Perm exArr ∧ es'.Pairwise (fun x y => exComp x y ≤ 0) ∧
    qsort exComp (Mem.object 100 exArr.flatten) 100 5 2
      = .ok ((Mem.object 100 exArr.flatten).write 100 es'.flatten) :=
  C32_qsort exComp (fun x y => by unfold exComp; omega) (fun x y z => by unfold exComp; omega)
    _ 100 2 exArr (by decide) ⟨by decide, by decide⟩ (by decide)

/-! ### C33 -/

theorem bsearchLoop_spec (compar : List Byte → Int) (m : Mem) (base w : Nat) (f : Nat → List Byte)
    (hf : ∀ i, (f i).length = w) (n : Nat) (hh : ∀ i < n, m.Holds (base + i * w) (f i))
    (hneg : ∀ i j, i < j → j < n → compar (f i) < 0 → compar (f j) < 0)
    (hpos : ∀ i j, i < j → j < n → 0 < compar (f j) → 0 < compar (f i)) :
    ∀ (lim lo : Nat), lo + lim ≤ n → (∀ i < lo, 0 < compar (f i)) →
      (∀ i, lo + lim ≤ i → i < n → compar (f i) < 0) →
      (∃ i < n, compar (f i) = 0 ∧ bsearchLoop compar m w (base + lo * w) lim = .ok (base + i * w)) ∨
      ((∀ i < n, compar (f i) ≠ 0) ∧ bsearchLoop compar m w (base + lo * w) lim = .ok 0) := by
  intro lim
  induction lim using Nat.strongRecOn with
  | _ lim ih =>
    intro lo hn hl hu
    by_cases h0 : lim = 0
    · subst h0
      right
      refine ⟨fun i hi => ?_, by rw [bsearchLoop, if_neg (by simp)]; rfl⟩
      rcases Nat.lt_or_ge i lo with h | h
      · have := hl i h; omega
      · have := hu i (by omega) hi; omega
    · set mid := lo + lim / 2 with hmid
      have hp : base + lo * w + lim / 2 * w = base + mid * w := by rw [hmid]; ring
      have hx : loadBytes m (base + mid * w) w = .ok (f mid) := by
        have := loadBytes_holds (hh mid (by omega))
        rwa [hf] at this
      have key : bsearchLoop compar m w (base + lo * w) lim
          = if compar (f mid) = 0 then .ok (base + mid * w)
            else if compar (f mid) > 0 then
              bsearchLoop compar m w (base + (mid + 1) * w) ((lim - 1) / 2)
            else bsearchLoop compar m w (base + lo * w) (lim / 2) := by
        rw [bsearchLoop, if_pos h0]
        dsimp only
        rw [hp, hx]
        simp only [Res.ok_bind]
        rw [show base + mid * w + w = base + (mid + 1) * w by ring]
        rfl
      rw [key]
      by_cases hz : compar (f mid) = 0
      · rw [if_pos hz]
        exact Or.inl ⟨mid, by omega, hz, rfl⟩
      · rw [if_neg hz]
        by_cases hg : compar (f mid) > 0
        · rw [if_pos hg]
          refine ih _ (by omega) (mid + 1) (by omega) (fun i hi => ?_) (fun i hi hin => hu i (by omega) hin)
          rcases Nat.lt_or_ge i mid with h | h
          · exact hpos i mid h (by omega) hg
          · rw [show i = mid by omega]; exact hg
        · rw [if_neg hg]
          refine ih _ (by omega) lo (by omega) hl (fun i hi hin => ?_)
          rcases Nat.lt_or_ge mid i with h | h
          · exact hneg mid i h hin (by omega)
          · rw [show i = mid by omega]; omega

/-- C33: on an array whose elements are partitioned by their comparison with the key (greater-than-key
comes last), bsearch terminates, reads only the array, and returns the address of an element comparing
equal, or NULL exactly when there is none. -/
theorem C33_bsearch (compar : List Byte → Int) (m : Mem) (base w : Nat) (es : List (List Byte))
    (hbase : 0 < base) (hes : IsArray m base w es)
    (hsorted : es.Pairwise (fun x y => (compar x < 0 → compar y < 0) ∧ (0 < compar y → 0 < compar x))) :
    (∃ i, ∃ h : i < es.length, compar es[i] = 0 ∧
        bsearch compar m base es.length w = .ok (base + i * w)) ∨
    ((∀ e ∈ es, compar e ≠ 0) ∧ bsearch compar m base es.length w = .ok 0) := by
  obtain ⟨he, hh⟩ := hes
  set f : Nat → List Byte := fun i => es.getD i (List.replicate w 0#8) with hfd
  have hfi : ∀ i (h : i < es.length), f i = es[i] := by
    intro i h; rw [hfd]; dsimp only; rw [List.getD_eq_getElem _ _ h]
  have hf : ∀ i, (f i).length = w := by
    intro i
    rcases Nat.lt_or_ge i es.length with h | h
    · rw [hfi i h]; exact he _ (List.getElem_mem h)
    · rw [hfd]; dsimp only; rw [List.getD_eq_default _ _ h]; simp
  have hm := arrMem_of_holds he hh
  rw [List.pairwise_iff_getElem] at hsorted
  have := bsearchLoop_spec compar m base w f hf es.length
    (fun i hi => by rw [hm]; exact arrMem_holds hi (hf i))
    (fun i j hij hj => by
      rw [hfi i (by omega), hfi j hj]; exact (hsorted i j (by omega) hj hij).1)
    (fun i j hij hj => by
      rw [hfi i (by omega), hfi j hj]; exact (hsorted i j (by omega) hj hij).2)
    es.length 0 (by omega) (fun i hi => by omega) (fun i h1 h2 => by omega)
  rw [show base + 0 * w = base by omega] at this
  rcases this with ⟨i, hi, hz, e⟩ | ⟨hz, e⟩
  · left
    refine ⟨i, hi, ?_, e⟩
    rw [← hfi i hi]; exact hz
  · right
    refine ⟨fun x hx => ?_, e⟩
    obtain ⟨i, hi, rfl⟩ := List.mem_iff_getElem.1 hx
    rw [← hfi i hi]; exact hz i hi

/-- C33: searching an array sorted by `comp` with a key compared by the same `comp`. -/
theorem C33_bsearch_sorted (comp : List Byte → List Byte → Int)
    (hanti : ∀ x y, 0 < comp x y ↔ comp y x < 0)
    (htrans : ∀ x y z, comp x y ≤ 0 → comp y z ≤ 0 → comp x z ≤ 0)
    (m : Mem) (base w : Nat) (es : List (List Byte)) (key : List Byte)
    (hbase : 0 < base) (hes : IsArray m base w es) (hsorted : es.Pairwise (fun x y => comp x y ≤ 0)) :
    (∃ i, ∃ h : i < es.length, comp key es[i] = 0 ∧
        bsearch (comp key) m base es.length w = .ok (base + i * w)) ∨
    ((∀ e ∈ es, comp key e ≠ 0) ∧ bsearch (comp key) m base es.length w = .ok 0) := by
  refine C33_bsearch (comp key) m base w es hbase hes (hsorted.imp fun {x y} hxy => ⟨fun h => ?_, fun h => ?_⟩)
  · by_contra hn
    have h1 : comp y key ≤ 0 := by
      have := (hanti y key).not; have := (hanti key y); omega
    have h2 := htrans x y key hxy h1
    have := (hanti x key).2 h
    omega
  · by_contra hn
    have h2 := htrans key x y (by omega) hxy
    omega

example : bsearch (exComp [7#8, 0#8]) (Mem.object 100 [1#8, 0#8, 5#8, 0#8]) 100 2 2 = .ok 0 := by
  rcases C33_bsearch_sorted exComp (fun x y => by unfold exComp; omega)
    (fun x y z => by unfold exComp; omega) (Mem.object 100 [1#8, 0#8, 5#8, 0#8]) 100 2
    [[1#8, 0#8], [5#8, 0#8]] [7#8, 0#8] (by decide) ⟨by decide, by decide⟩ (by decide)
    with ⟨i, hi, h, _⟩ | ⟨_, h⟩
  · exact absurd h (by
      have h2 : ∀ j : Fin 2, exComp [7#8, 0#8] [[1#8, 0#8], [5#8, 0#8]][j] ≠ 0 := by decide
      exact h2 ⟨i, hi⟩)
  · exact h

/-- C32/C33 together: an array sorted with qsort is searched correctly with bsearch. -/
theorem C33_search_after_sort (comp : List Byte → List Byte → Int)
    (hanti : ∀ x y, 0 < comp x y ↔ comp y x < 0)
    (htrans : ∀ x y z, comp x y ≤ 0 → comp y z ≤ 0 → comp x z ≤ 0)
    (m : Mem) (base w : Nat) (es : List (List Byte)) (key : List Byte) (hw : 0 < w)
    (hbase : 0 < base) (hes : IsArray m base w es) (hsize : w * es.length ≤ 2 ^ 60) :
    ∃ (m' : Mem) (es' : List (List Byte)), qsort comp m base es.length w = .ok m' ∧ es'.Perm es ∧ IsArray m' base w es' ∧
      ((∃ i, ∃ h : i < es'.length, comp key es'[i] = 0 ∧
          bsearch (comp key) m' base es.length w = .ok (base + i * w)) ∨
       ((∀ e ∈ es, comp key e ≠ 0) ∧ bsearch (comp key) m' base es.length w = .ok 0)) := by
  obtain ⟨es', hp, hs, e⟩ := C32_qsort comp
    (fun x y => by have := hanti x y; omega) htrans m base w es hw hes hsize
  have hA : IsArray (m.write base es'.flatten) base w es' :=
    ⟨fun e he => hes.1 e (hp.mem_iff.1 he), write_holds _ _ _⟩
  refine ⟨_, es', e, hp, hA, ?_⟩
  have hl := hp.length_eq
  rcases C33_bsearch_sorted comp hanti htrans (m.write base es'.flatten) base w es' key hbase hA hs
    with ⟨i, hi, h1, h2⟩ | ⟨h1, h2⟩
  · exact Or.inl ⟨i, hi, h1, by rw [← hl]; exact h2⟩
  · exact Or.inr ⟨fun x hx => h1 x (hp.mem_iff.2 hx), by rw [← hl]; exact h2⟩

/-- C33: sorting the array of the example, then looking for an element. -/
example : ∃ (m' : Mem) (p : Nat), qsort exComp (Mem.object 100 exArr.flatten) 100 5 2 = .ok m' ∧ bsearch (exComp [9#8, 9#8]) m' 100 5 2 = .ok p := by
  obtain ⟨m', es', h1, -, -, h2⟩ := C33_search_after_sort exComp (fun x y => by unfold exComp; omega) (fun x y z => by unfold exComp; omega)
    (Mem.object 100 exArr.flatten) 100 2 exArr [9#8, 9#8] (by decide) (by decide) ⟨by decide, by decide⟩ (by decide)
  rcases h2 with ⟨i, _, _, h2⟩ | ⟨_, h2⟩
  · exact ⟨m', _, h1, h2⟩
  · exact ⟨m', _, h1, h2⟩

end Minilib

import Verif.Model.Groups
import Verif.Props.Userdb
import Verif.Props.Group
/-
Lemmas about both databases in one memory.
-/

set_option autoImplicit false

namespace Minilib
open Mem

theorem pageBytes_ge (n : Nat) : n ≤ pageBytes n := by unfold pageBytes; omega

theorem mapFile_holds (a : Nat) (text : List Byte) (m : Mem) : (mapFile a text m).Holds a text := by
  intro i hi
  have := pageBytes_ge text.length
  unfold mapFile
  rw [if_pos (by omega), show a + i - a = i by omega, List.getElem?_eq_getElem hi]; rfl

theorem mapFile_zero {a : Nat} {text : List Byte} {m : Mem} {i : Nat} (h : text.length + i < pageBytes text.length) :
    mapFile a text m (a + text.length + i) = some 0#8 := by
  unfold mapFile
  rw [if_pos (by omega), List.getElem?_eq_none (by omega)]; rfl

theorem mapFile_outside {a : Nat} {text : List Byte} {m : Mem} {x : Nat} (h : x < a ∨ a + pageBytes text.length ≤ x) :
    mapFile a text m x = m x := by
  unfold mapFile; rw [if_neg (by omega)]

/-- The memory before the file at `a` was cut. -/
def uncut (a : Nat) (text : List Byte) (m : Mem) : Mem := fun x =>
  if a ≤ x ∧ x < a + text.length then text[x - a]? else m x

theorem uncut_holds (a : Nat) (text : List Byte) (m : Mem) : (uncut a text m).Holds a text := by
  intro i hi
  unfold uncut
  rw [if_pos (by omega), show a + i - a = i by omega, List.getElem?_eq_getElem hi]

theorem holds_same {m m' : Mem} {p lo hi : Nat} {l : List Byte} (h : m.Holds p l) (he : ∀ x, lo ≤ x → x < hi → m' x = m x)
    (h1 : lo ≤ p) (h2 : p + l.length ≤ hi) : m'.Holds p l := by
  intro i hi'
  rw [he _ (by omega) (by omega)]; exact h i hi'

theorem isStr_same {m m' : Mem} {p lo hi : Nat} {l : List Byte} (h : m.IsStr p l) (he : ∀ x, lo ≤ x → x < hi → m' x = m x)
    (h1 : lo ≤ p) (h2 : p + l.length < hi) : m'.IsStr p l :=
  ⟨holds_same h.1 he h1 (by omega), by rw [he _ (by omega) (by omega)]; exact h.2.1, h.2.2⟩

theorem fld_same {m m' : Mem} {p lo hi : Nat} {l : List Byte} (h : Fld m p l) (he : ∀ x, lo ≤ x → x < hi → m' x = m x)
    (h1 : lo ≤ p) (h2 : p + l.length < hi) : Fld m' p l := by
  obtain ⟨g1, g2, b, g3, g4⟩ := h
  exact ⟨holds_same g1 he h1 (by omega), g2, b, by rw [he _ (by omega) (by omega)]; exact g3, g4⟩

theorem flds_same {m m' : Mem} {p lo hi : Nat} {fs : List (List Byte)} (h : Flds m p fs)
    (he : ∀ x, lo ≤ x → x < hi → m' x = m x) (h1 : lo ≤ p) (h2 : p + width fs ≤ hi) : Flds m' p fs := by
  induction fs generalizing p with
  | nil => trivial
  | cons f fs ih =>
    rw [width_cons] at h2
    exact ⟨fld_same h.1 he h1 (by omega), ih h.2 (by omega) (by omega)⟩

theorem strs_same {m m' : Mem} {p lo hi : Nat} {fs : List (List Byte)} (h : Strs m p fs)
    (he : ∀ x, lo ≤ x → x < hi → m' x = m x) (h1 : lo ≤ p) (h2 : p + width fs ≤ hi) : Strs m' p fs := by
  induction fs generalizing p with
  | nil => trivial
  | cons f fs ih =>
    rw [width_cons] at h2
    exact ⟨isStr_same h.1 he h1 (by omega), h.2.1, ih h.2.2 (by omega) (by omega)⟩

theorem uncut_cut {ls : List Spec.PwLine} {m0 m m' : Mem} {a : Nat} (hT : m0.Holds a (Spec.pwText ls))
    (hc : Cut seps a (a + width (allFields ls)) (a + width (allFields ls)) m0 m)
    (he : ∀ x, a ≤ x → x < a + width (allFields ls) → m' x = m x) :
    Cut seps a (a + width (allFields ls)) (a + width (allFields ls)) (uncut a (Spec.pwText ls) m') m' := by
  have hl := length_pwText ls
  intro x
  by_cases hx : a ≤ x ∧ x < a + width (allFields ls)
  · have hu : uncut a (Spec.pwText ls) m' x = m0 x := by
      unfold uncut
      rw [if_pos (by omega)]
      have := hT (x - a) (by omega)
      rw [show a + (x - a) = x by omega] at this
      rw [this, List.getElem?_eq_getElem]
    rw [hu, he x hx.1 hx.2]
    exact hc x
  · left
    unfold uncut
    rw [if_neg (by omega)]

theorem pwRep_same {m m' : Mem} {w : Passwd} {l : Spec.PwLine} {lo hi : Nat} (h : PwRep m w l) (hi' : PwIn w l lo hi)
    (he : ∀ x, lo ≤ x → x < hi → m' x = m x) : PwRep m' w l := by
  obtain ⟨h1, h2, h3, h4, h5, h6, h7⟩ := h
  obtain ⟨i0, i1, i2, i3, i4, i5, i6, i7, i8, i9⟩ := hi'
  exact ⟨isStr_same h1 he i0 i1, isStr_same h2 he i6 i2, h3, h4, isStr_same h5 he i7 i3, isStr_same h6 he i8 i4,
    isStr_same h7 he i9 i5⟩

/-- The passwd database does not mind changes elsewhere. -/
theorem pwInv_same {ls : List Spec.PwLine} {m0 : Mem} {a : Nat} {s : PwState} {k : Spec.PwMind} {m' : Mem}
    (hT : m0.Holds a (Spec.pwText ls)) (h : PwInv ls m0 a s k)
    (he : ∀ x, a ≤ x → x < a + width (allFields ls) → m' x = s.m x) :
    PwInv ls (uncut a (Spec.pwText ls) m') a ⟨m', s.f, s.pw⟩ k := by
  obtain ⟨h0, h⟩ := h
  refine ⟨h0, ?_⟩
  split at h
  · rename_i ho
    rw [if_pos ho]
    obtain ⟨h1, h2, h3, h4, h5, h6, h7⟩ := h
    refine ⟨h1, h2, flds_same h3 he (Nat.le_refl _) (Nat.le_refl _), uncut_cut hT h4 he, h5, h6, ?_⟩
    revert h7
    cases k.last with
    | none => exact id
    | some e => exact fun h7 => ⟨pwRep_same h7.1 h7.2 he, h7.2⟩
  · rename_i ho
    rw [if_neg ho]
    exact h

/-- The group database does not mind changes elsewhere. -/
theorem gInv_same {ls : List Spec.GrLine} {a : Nat} {s : GrState} {pos r : Nat} {m' : Mem} (hG : ∀ l ∈ ls, l.Good)
    (h : GInv ls a s pos r)
    (he : ∀ x, a ≤ x → x < a + (Spec.grText ls).length + 8 * ls.length → m' x = s.m x) : GInv ls a ⟨m', s.f, s.gr⟩ pos r := by
  obtain ⟨s0, s1, s2, s3, s4, s5, s6, s7, s8, s9⟩ := h
  refine ⟨s0, s1, s2, s3, s4, s5, ?_, ?_, ?_, s9⟩
  · intro j l hj hl
    obtain ⟨⟨d1, d2, d3, d4⟩, c⟩ := s6 j l hj hl
    have hg := hG l (List.mem_of_getElem? hl)
    have h1 := grStart_succ (a := a) hl hg
    have h2 := grStart_le (ls := ls) (a := a) (j := j + 1)
    have h3 := le_grStart (ls := ls) (a := a) (j := j)
    unfold grWidth at h1
    have hj' := (List.getElem?_eq_some_iff.1 hl).1
    exact ⟨⟨isStr_same d1 he (by omega) (by omega), isStr_same d2 he (by omega) (by omega), fld_same d3 he (by omega) (by omega),
      strs_same d4 he (by omega) (by omega)⟩, holds_same c he (by omega) (by rw [length_natBytes]; omega)⟩
  · refine holds_same s7 he le_grStart ?_
    have := congrArg (fun x => (Spec.grText x).length) (List.take_append_drop r ls)
    simp only [grText_append, List.length_append] at this
    unfold grStart
    omega
  · intro j h1 h2
    exact holds_same (s8 j h1 h2) he (by omega) (by rw [length_natBytes]; omega)

end Minilib

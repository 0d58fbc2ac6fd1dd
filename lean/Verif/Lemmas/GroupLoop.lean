import Verif.Lemmas.Group
/-
Lemmas about the loops over the group database.
-/

set_option autoImplicit false

namespace Minilib
open Mem

/-- The address of line `j`. -/
def grStart (ls : List Spec.GrLine) (a j : Nat) : Nat := a + (Spec.grText (ls.take j)).length

theorem grText_append (x y : List Spec.GrLine) : Spec.grText (x ++ y) = Spec.grText x ++ Spec.grText y := by
  simp [Spec.grText]

theorem grStart_succ {ls : List Spec.GrLine} {a j : Nat} {l : Spec.GrLine} (h : ls[j]? = some l) (hg : l.Good) :
    grStart ls a (j + 1) = grStart ls a j + grWidth l := by
  unfold grStart
  rw [List.take_add_one, h, grText_append, List.length_append, ← length_grText_line hg.2.2.2.2.1]
  simp [Spec.grText]; omega

theorem grStart_le {ls : List Spec.GrLine} {a j : Nat} : grStart ls a j ≤ a + (Spec.grText ls).length := by
  unfold grStart
  have := congrArg (fun x => (Spec.grText x).length) (List.take_append_drop j ls)
  simp only [grText_append, List.length_append] at this
  omega

theorem le_grStart {ls : List Spec.GrLine} {a j : Nat} : a ≤ grStart ls a j := by unfold grStart; omega

theorem Cut.outside {S : List Byte} {lo hi : Nat} {m m' : Mem} (h : Cut S lo hi hi m m') {x : Nat} (hx : x < lo ∨ hi ≤ x) :
    m' x = m x := by
  rcases h x with e | ⟨e1, e2, _⟩ | ⟨e1, e2, _⟩
  · exact e
  · omega
  · omega

/-- The group file is open: `pos` is the number of the next line, and `r` lines were read at least once. -/
structure GInv (ls : List Spec.GrLine) (a : Nat) (s : GrState) (pos r : Nat) : Prop where
  file : s.f.file = a
  size : s.f.size = (Spec.grText ls).length
  le : pos ≤ r
  le' : r ≤ ls.length
  p : s.f.p = grStart ls a pos
  p2 : s.f.p2 = a + (Spec.grText ls).length + 8 * pos
  done : ∀ j l, j < r → ls[j]? = some l → GrDone s.m (grStart ls a j) l ∧
    s.m.Holds (a + (Spec.grText ls).length + 8 * j) (natBytes 8 (grStart ls a (j + 1)))
  raw : s.m.Holds (grStart ls a r) (Spec.grText (ls.drop r))
  zero : ∀ j, r ≤ j → j < ls.length → s.m.Holds (a + (Spec.grText ls).length + 8 * j) (natBytes 8 0)
  mem : s.gr.mem.length = 64

/-- What happens to memory. -/
abbrev GCut (ls : List Spec.GrLine) (a : Nat) (m m' : Mem) : Prop :=
  Cut seps3 a (a + (Spec.grText ls).length) (a + (Spec.grText ls).length + 8 * ls.length) m m'

theorem getgrent_line {ls : List Spec.GrLine} {a pos r : Nat} {s : GrState} {l : Spec.GrLine} (hG : ∀ l ∈ ls, l.Good)
    (h64 : a + (Spec.grText ls).length < 18446744073709551616) (hi : GInv ls a s pos r) (hl : ls[pos]? = some l) :
    ∃ s' r', getgrentOpen s.m s.f s.gr = .ok (s', true) ∧ GInv ls a s' (pos + 1) r' ∧ r ≤ r' ∧ pos < r' ∧
      GrAt s'.gr (grStart ls a pos) l ∧ GCut ls a s.m s'.m := by
  have hlg := hG l (List.mem_of_getElem? hl)
  have hlt := (List.getElem?_eq_some_iff.1 hl).1
  have hst := grStart_succ (a := a) hl hlg
  have hle := grStart_le (ls := ls) (a := a) (j := pos + 1)
  obtain ⟨s0, s1, s2, s3, s4, s5, s6, s7, s8, s9⟩ := hi
  have hfin : grStart ls a pos + grWidth l ≤ s.f.file + s.f.size := by omega
  by_cases hr : pos < r
  · obtain ⟨d1, d2⟩ := s6 pos l hr hl
    rw [hst] at d2
    obtain ⟨gr', e, hat⟩ := getgrentOpen_again hlg s4 s5 d1 hfin d2 (by omega) s9
    refine ⟨_, r, e, ⟨s0, s1, hr, s3, ?_, ?_, s6, s7, s8, hat.2.2.2.1⟩, Nat.le_refl _, hr, hat, Cut.refl _ _ _ _ _⟩
    · exact hst.symm
    · dsimp only; omega
  · have hr : r = pos := by omega
    subst hr
    have hdrop : ls.drop r = l :: ls.drop (r + 1) := by
      rw [List.drop_eq_getElem_cons hlt, (List.getElem?_eq_some_iff.1 hl).2]
    have hraw := s7
    rw [hdrop, show Spec.grText (l :: ls.drop (r + 1)) = l.text ++ Spec.grText (ls.drop (r + 1)) by simp [Spec.grText],
      holds_append, length_grText_line hlg.2.2.2.2.1] at hraw
    have hlen : grStart ls a (r + 1) + (Spec.grText (ls.drop (r + 1))).length = a + (Spec.grText ls).length := by
      unfold grStart
      have := congrArg (fun x => (Spec.grText x).length) (List.take_append_drop (r + 1) ls)
      simp only [grText_append, List.length_append] at this
      omega
    obtain ⟨m1, gr', e, c1, hd, hat⟩ := getgrentOpen_first hlg s4 s5 hraw.1 hfin (by omega) (s8 r (Nat.le_refl _) hlt) s9
    generalize hm2 : m1.write (a + (Spec.grText ls).length + 8 * r) (natBytes 8 (grStart ls a r + grWidth l)) = m2 at e
    have out : ∀ x, (x < grStart ls a r ∨ grStart ls a r + grWidth l ≤ x) →
        (x < a + (Spec.grText ls).length + 8 * r ∨ a + (Spec.grText ls).length + 8 * r + 8 ≤ x) → m2 x = s.m x := by
      intro x h1 h2
      rw [← hm2, write_outside _ _ _ _ (by rw [length_natBytes]; exact h2)]
      exact c1.outside h1
    have c12 : GCut ls a s.m m2 := by
      intro x
      by_cases hx : a + (Spec.grText ls).length + 8 * r ≤ x ∧ x < a + (Spec.grText ls).length + 8 * r + 8
      · refine Or.inr (Or.inr ⟨by omega, by omega, ?_, ?_⟩)
        · have := s8 r (Nat.le_refl _) hlt (x - (a + (Spec.grText ls).length + 8 * r)) (by rw [length_natBytes]; omega)
          rw [show a + (Spec.grText ls).length + 8 * r + (x - (a + (Spec.grText ls).length + 8 * r)) = x by omega] at this
          rw [this]; rfl
        · rw [← hm2]
          have hw := write_holds m1 (a + (Spec.grText ls).length + 8 * r) (natBytes 8 (grStart ls a r + grWidth l))
            (x - (a + (Spec.grText ls).length + 8 * r)) (by rw [length_natBytes]; omega)
          rw [show a + (Spec.grText ls).length + 8 * r + (x - (a + (Spec.grText ls).length + 8 * r)) = x by omega] at hw
          rw [hw]; rfl
      · have hx' : m2 x = m1 x := by
          rw [← hm2, write_outside _ _ _ _ (by rw [length_natBytes]; omega)]
        rcases c1 x with e | ⟨e1, e2, e3, e4⟩ | ⟨e1, e2, _⟩
        · exact Or.inl (hx'.trans e)
        · exact Or.inr (Or.inl ⟨Nat.le_trans le_grStart e1, by omega, e3, hx'.trans e4⟩)
        · omega
    have c1w : GCut ls a m1 m2 := by
      intro x
      by_cases hx : a + (Spec.grText ls).length + 8 * r ≤ x ∧ x < a + (Spec.grText ls).length + 8 * r + 8
      · rcases c12 x with e | ⟨e1, e2, _⟩ | ⟨e1, e2, e3, e4⟩
        · left
          have := c1.outside (x := x) (by omega)
          rw [e, this]
        · omega
        · refine Or.inr (Or.inr ⟨by omega, by omega, ?_, e4⟩)
          rw [c1.outside (x := x) (by omega)]; exact e3
      · left
        rw [← hm2, write_outside _ _ _ _ (by rw [length_natBytes]; omega)]
    refine ⟨_, r + 1, e, ⟨s0, s1, Nat.le_refl _, hlt, ?_, ?_, ?_, ?_, ?_, hat.2.2.2.1⟩, by omega, by omega, hat, c12⟩
    · exact hst.symm
    · dsimp only; omega
    · intro j k hj hk
      have hkg := hG k (List.mem_of_getElem? hk)
      have hst' := grStart_succ (a := a) hk hkg
      have hle' := grStart_le (ls := ls) (a := a) (j := j + 1)
      rcases Nat.lt_or_ge j r with hj' | hj'
      · obtain ⟨d1, d2⟩ := s6 j k hj' hk
        refine ⟨d1.cut hkg c12 (by omega), ?_⟩
        intro i hi
        rw [length_natBytes] at hi
        show m2 _ = _
        rw [out _ (by omega) (by omega)]
        exact d2 i (by rw [length_natBytes]; exact hi)
      · have : j = r := by omega
        subst this
        rw [hl] at hk
        cases hk
        refine ⟨hd.cut hlg c1w (by omega), ?_⟩
        dsimp only
        rw [hst, ← hm2]
        exact write_holds _ _ _
    · intro i hi
      show m2 _ = _
      rw [out _ (by omega) (by omega)]
      have := hraw.2 i hi
      rw [← hst] at this
      exact this
    · intro j hj hj' i hi
      rw [length_natBytes] at hi
      show m2 _ = _
      rw [out _ (by omega) (by omega)]
      exact s8 j (by omega) hj' i (by rw [length_natBytes]; exact hi)

theorem getgrent_end {ls : List Spec.GrLine} {a pos r : Nat} {s : GrState} (hi : GInv ls a s pos r) (hl : ls[pos]? = none) :
    getgrentOpen s.m s.f s.gr = .ok (s, false) ∧ pos = ls.length := by
  have hlen := List.getElem?_eq_none_iff.1 hl
  have h1 := hi.le
  have h2 := hi.le'
  refine ⟨?_, by omega⟩
  unfold getgrentOpen
  rw [hi.p, hi.file, hi.size, if_pos]
  · rfl
  · unfold grStart
    rw [List.take_of_length_le hlen]; exact Nat.le_refl _

theorem getgrent_open {kern : Mapping} {s : GrState} (h : s.f.file ≠ 0) :
    getgrent kern s = getgrentOpen s.m s.f s.gr := by
  simp only [getgrent, userdbOpen, if_pos h]

/-- `struct group` belongs to a line that was read. -/
def LastOk (ls : List Spec.GrLine) (a r : Nat) (gr : Group) (last : Option Spec.GrLine) : Prop :=
  ∀ e, last = some e → ∃ j, j < r ∧ ls[j]? = some e ∧ GrAt gr (grStart ls a j) e

/-- The outcome of a loop over the lines. -/
def GFound (ls : List Spec.GrLine) (a r : Nat) (gr : Group) (b : Bool) : Option Spec.GrLine → Prop
  | none => b = false
  | some l => b = true ∧ ∃ j, j < r ∧ ls[j]? = some l ∧ GrAt gr (grStart ls a j) l

theorem drop_cons_get {ls rest : List Spec.GrLine} {pos : Nat} {l : Spec.GrLine} (h : ls.drop pos = l :: rest) :
    ls[pos]? = some l ∧ ls.drop (pos + 1) = rest := by
  have h1 : pos < ls.length := by
    rcases Nat.lt_or_ge pos ls.length with h' | h'
    · exact h'
    · rw [List.drop_eq_nil_of_le h'] at h; cases h
  rw [List.drop_eq_getElem_cons h1] at h
  cases h
  exact ⟨List.getElem?_eq_some_iff.2 ⟨h1, rfl⟩, rfl⟩

theorem getgrgidLoop_eq {ls rest : List Spec.GrLine} {a pos r n : Nat} {s : GrState} {kern : Mapping} {last : Option Spec.GrLine}
    (hG : ∀ l ∈ ls, l.Good) (ha : a ≠ 0) (h64 : a + (Spec.grText ls).length < 18446744073709551616) (hi : GInv ls a s pos r)
    (hlast : LastOk ls a r s.gr last) (hrest : ls.drop pos = rest) :
    ∃ s' b r', getgrgidLoop kern n s = .ok (s', b) ∧
      GInv ls a s' (Spec.grSearch (fun l => decide (Spec.decValue l.gid = n)) pos last rest).2.1 r' ∧
      LastOk ls a r' s'.gr (Spec.grSearch (fun l => decide (Spec.decValue l.gid = n)) pos last rest).2.2 ∧
      GFound ls a r' s'.gr b (Spec.grSearch (fun l => decide (Spec.decValue l.gid = n)) pos last rest).1 ∧ GCut ls a s.m s'.m := by
  induction rest generalizing s pos r last with
  | nil =>
    have hnone : ls[pos]? = none := List.getElem?_eq_none_iff.2 (List.drop_eq_nil_iff.1 hrest)
    refine ⟨s, false, r, ?_, hi, hlast, rfl, Cut.refl _ _ _ _ _⟩
    rw [getgrgidLoop, getgrent_open (by rw [hi.file]; exact ha), (getgrent_end hi hnone).1, Res.ok_bind]
    rfl
  | cons l rest ih =>
    obtain ⟨hl, hrest'⟩ := drop_cons_get hrest
    obtain ⟨s1, r1, e1, i1, hr1, hp1, at1, c1⟩ := getgrent_line hG h64 hi hl
    have hstep : getgrgidLoop kern n s =
        if s1.gr.gid = n then .ok (s1, true) else getgrgidLoop kern n s1 := by
      rw [getgrgidLoop, getgrent_open (by rw [hi.file]; exact ha), e1, Res.ok_bind]
      dsimp only
      rw [if_pos rfl]; rfl
    rw [hstep, at1.2.2.1, Spec.grSearch]
    by_cases heq : Spec.decValue l.gid = n
    · rw [if_pos heq, if_pos (by simpa using heq)]
      exact ⟨s1, true, r1, rfl, i1, fun e he => by cases he; exact ⟨pos, hp1, hl, at1⟩, ⟨rfl, pos, hp1, hl, at1⟩, c1⟩
    · rw [if_neg heq, if_neg (by simpa using heq)]
      obtain ⟨s2, b, r2, e2, i2, l2, f2, c2⟩ := ih i1 (last := some l) (fun e he => by cases he; exact ⟨pos, hp1, hl, at1⟩) hrest'
      exact ⟨s2, b, r2, e2, i2, l2, f2, c1.trans c2 seps3_zero⟩

theorem getgrnamLoop_eq {ls rest : List Spec.GrLine} {a pos r nm : Nat} {name : List Byte} {s : GrState} {kern : Mapping}
    {last : Option Spec.GrLine}
    (hG : ∀ l ∈ ls, l.Good) (ha : a ≠ 0) (h64 : a + (Spec.grText ls).length < 18446744073709551616) (hi : GInv ls a s pos r)
    (hlast : LastOk ls a r s.gr last) (hrest : ls.drop pos = rest) (hn : s.m.IsStr nm name) (hnw : Spec.Word name)
    (hnl : name.length < 2147483647)
    (hnp : nm + name.length < a + (Spec.grText ls).length ∨ a + (Spec.grText ls).length + 8 * ls.length ≤ nm) :
    ∃ s' b r', getgrnamLoop kern nm s = .ok (s', b) ∧
      GInv ls a s' (Spec.grSearch (fun l => decide (l.name = name)) pos last rest).2.1 r' ∧
      LastOk ls a r' s'.gr (Spec.grSearch (fun l => decide (l.name = name)) pos last rest).2.2 ∧
      GFound ls a r' s'.gr b (Spec.grSearch (fun l => decide (l.name = name)) pos last rest).1 ∧ GCut ls a s.m s'.m := by
  induction rest generalizing s pos r last with
  | nil =>
    have hnone : ls[pos]? = none := List.getElem?_eq_none_iff.2 (List.drop_eq_nil_iff.1 hrest)
    refine ⟨s, false, r, ?_, hi, hlast, rfl, Cut.refl _ _ _ _ _⟩
    rw [getgrnamLoop, getgrent_open (by rw [hi.file]; exact ha), (getgrent_end hi hnone).1, Res.ok_bind]
    rfl
  | cons l rest ih =>
    obtain ⟨hl, hrest'⟩ := drop_cons_get hrest
    obtain ⟨s1, r1, e1, i1, hr1, hp1, at1, c1⟩ := getgrent_line hG h64 hi hl
    have hn1 : s1.m.IsStr nm name := c1.isStr hn (word_seps3 hnw) seps3_zero (by omega)
    have hname : s1.m.IsStr s1.gr.name l.name := by
      rw [at1.1]; exact (i1.done pos l hp1 hl).1.1
    obtain ⟨x, hx, _, hx0, _⟩ := C06_strcmp hn1 hname hnl
    have hstep : getgrnamLoop kern nm s =
        if x = 0 then .ok (s1, true) else getgrnamLoop kern nm s1 := by
      rw [getgrnamLoop, getgrent_open (by rw [hi.file]; exact ha), e1, Res.ok_bind]
      dsimp only
      rw [if_pos rfl, hx, Res.ok_bind]; rfl
    rw [hstep, Spec.grSearch]
    by_cases heq : l.name = name
    · rw [if_pos (hx0.2 heq.symm), if_pos (by simpa using heq)]
      exact ⟨s1, true, r1, rfl, i1, fun e he => by cases he; exact ⟨pos, hp1, hl, at1⟩, ⟨rfl, pos, hp1, hl, at1⟩, c1⟩
    · rw [if_neg (fun h => heq (hx0.1 h).symm), if_neg (by simpa using heq)]
      obtain ⟨s2, b, r2, e2, i2, l2, f2, c2⟩ :=
        ih i1 (last := some l) (fun e he => by cases he; exact ⟨pos, hp1, hl, at1⟩) hrest' hn1
      exact ⟨s2, b, r2, e2, i2, l2, f2, c1.trans c2 seps3_zero⟩

end Minilib

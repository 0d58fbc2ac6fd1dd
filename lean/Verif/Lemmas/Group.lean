import Verif.Lemmas.Userdb
import Mathlib.Data.List.Forall2
/-
Lemmas about reading the group database.
-/

set_option autoImplicit false

namespace Minilib
open Mem

/-! ### pointers in memory -/

theorem bytesNat_natBytes (k v : Nat) : bytesNat (natBytes k v) = v % 256 ^ k := by
  induction k generalizing v with
  | zero => simp [natBytes, bytesNat, Nat.mod_one]
  | succ k ih =>
    rw [natBytes, bytesNat, ih, BitVec.toNat_ofNat, show 256 ^ (k + 1) = 256 * 256 ^ k from Nat.pow_succ', Nat.mod_mul]

theorem length_natBytes (k v : Nat) : (natBytes k v).length = k := by
  induction k generalizing v with
  | zero => rfl
  | succ k ih => simp [natBytes, ih]

theorem loadPtr_eq {m : Mem} {a v : Nat} (h : m.Holds a (natBytes 8 v)) (hv : v < 18446744073709551616) :
    loadPtr m a = .ok v := by
  have := loadBytes_holds h
  rw [length_natBytes] at this
  rw [loadPtr, this, Res.ok_bind, bytesNat_natBytes, Nat.mod_eq_of_lt (by omega)]; rfl

theorem storeBytes_eq_write {m : Mem} {a : Nat} {l : List Byte} (h : m.Mapped a l.length) :
    m.storeBytes a l = .ok (m.write a l) := by
  induction l generalizing m a with
  | nil => simp [storeBytes, write_nil]
  | cons b l ih =>
    rw [List.length_cons, mapped_succ] at h
    obtain ⟨⟨c, hc⟩, h⟩ := h
    rw [storeBytes, store_some hc, Res.ok_bind, ih (h.upd _ _), write_cons]

theorem storePtr_eq {m : Mem} {a v : Nat} (h : m.Mapped a 8) : storePtr m a v = .ok (m.write a (natBytes 8 v)) :=
  storeBytes_eq_write (by rw [length_natBytes]; exact h)

/-! ### strings that were cut before -/

/-- The strings `fs` are one behind the other from `p` on. -/
def Strs (m : Mem) : Nat → List (List Byte) → Prop
  | _, [] => True
  | p, f :: fs => m.IsStr p f ∧ Spec.Word f ∧ Strs m (p + f.length + 1) fs

/-- Their addresses. -/
def addrs : Nat → List (List Byte) → List Nat
  | _, [] => []
  | p, f :: fs => p :: addrs (p + f.length + 1) fs

theorem length_addrs (p : Nat) (fs : List (List Byte)) : (addrs p fs).length = fs.length := by
  induction fs generalizing p with
  | nil => rfl
  | cons f fs ih => simp [addrs, ih]

theorem addrs_pos {p : Nat} {fs : List (List Byte)} (hp : 0 < p) : ∀ x ∈ addrs p fs, x ≠ 0 := by
  induction fs generalizing p with
  | nil => simp [addrs]
  | cons f fs ih =>
    intro x hx
    rcases List.mem_cons.1 hx with rfl | hx
    · omega
    · exact ih (by omega) x hx

theorem strs_forall {m : Mem} {p : Nat} {fs : List (List Byte)} (h : Strs m p fs) :
    List.Forall₂ (fun q f => m.IsStr q f) (addrs p fs) fs := by
  induction fs generalizing p with
  | nil => exact .nil
  | cons f fs ih => exact .cons h.1 (ih h.2.2)

/-- The separators of the group file. -/
abbrev seps3 : List Byte := [58#8, 10#8, 44#8]

theorem seps3_zero : (0#8 : Byte) ∉ seps3 := by decide

theorem word_seps3 {f : List Byte} (h : Spec.Word f) : ∀ b ∈ f, b ∉ seps3 := by
  intro b hb
  obtain ⟨_, h1, h2, h3⟩ := h b hb
  simp [h1, h2, h3]

theorem word_field {f : List Byte} (h : Spec.Word f) : Spec.Field f := fun b hb =>
  ⟨(h b hb).1, (h b hb).2.1, (h b hb).2.2.1⟩

theorem number_word {f : List Byte} (h : Spec.Number f) : Spec.Word f := by
  intro b hb
  obtain ⟨h1, h2⟩ := h.1 b hb
  refine ⟨?_, ?_, ?_, ?_⟩ <;> rintro rfl <;> revert h1 h2 <;> decide

theorem Cut.mono {S S' : List Byte} {lo hi lo' hi' top' : Nat} {m m' : Mem} (h : Cut S lo hi hi m m') (hS : ∀ b ∈ S, b ∈ S')
    (hl : lo' ≤ lo) (hh : hi ≤ hi') : Cut S' lo' hi' top' m m' := by
  intro a
  rcases h a with e | ⟨e1, e2, ⟨b, e3, e5⟩, e4⟩ | ⟨e1, e2, _, _⟩
  · exact Or.inl e
  · exact Or.inr (Or.inl ⟨by omega, by omega, ⟨b, hS b e3, e5⟩, e4⟩)
  · omega

theorem Strs.cut {m m' : Mem} {p : Nat} {fs : List (List Byte)} {lo hi top : Nat} (h : Strs m p fs)
    (hc : Cut seps3 lo hi top m m') (hp : p + width fs ≤ hi) : Strs m' p fs := by
  induction fs generalizing p with
  | nil => trivial
  | cons f fs ih =>
    simp only [width_cons] at hp
    exact ⟨hc.isStr h.1 (word_seps3 h.2.1) seps3_zero (by omega), h.2.1, ih h.2.2 (by omega)⟩

theorem upd_zero {m : Mem} {a : Nat} (h : m a = some 0#8) : m.upd a 0#8 = m := by
  funext x
  by_cases hx : x = a
  · subst hx; rw [upd_same, h]
  · exact upd_ne hx

/-- `token_s` over a string that was cut before. -/
theorem tokenS_str {fin : Nat} {m : Mem} {p : Nat} {f : List Byte} (h : m.IsStr p f) (hf : Spec.Field f)
    (hl : p + f.length < fin) : tokenS fin m p = .ok (m, p + f.length + 1) := by
  rw [tokenS_fld ⟨h.1, hf, 0#8, h.2.1, Or.inr rfl⟩ hl, upd_zero h.2.1]

/-! ### the members -/

/-- The words `fs` are one behind the other, each followed by a comma or a NUL. -/
def MFlds (m : Mem) : Nat → List (List Byte) → Prop
  | _, [] => True
  | p, f :: fs => m.Holds p f ∧ Spec.Word f ∧ (∃ b, m (p + f.length) = some b ∧ (b = 44#8 ∨ b = 0#8)) ∧
      MFlds m (p + f.length + 1) fs

theorem length_commas {fs : List (List Byte)} (h : fs ≠ []) : (Spec.commas fs).length + 1 = width fs := by
  induction fs with
  | nil => exact absurd rfl h
  | cons f fs ih =>
    cases fs with
    | nil => simp [Spec.commas]
    | cons g fs =>
      have := ih (by simp)
      rw [Spec.commas, List.length_append, List.length_append, width_cons, ← this]
      simp; omega

theorem mflds_commas {m : Mem} {p : Nat} {fs : List (List Byte)} (hne : fs ≠ []) (h : m.Holds p (Spec.commas fs))
    (h0 : m (p + (Spec.commas fs).length) = some 0#8) (hw : ∀ f ∈ fs, Spec.Word f) : MFlds m p fs := by
  induction fs generalizing p with
  | nil => exact absurd rfl hne
  | cons f fs ih =>
    cases fs with
    | nil => exact ⟨h, hw f (by simp), ⟨0#8, h0, Or.inr rfl⟩, trivial⟩
    | cons g fs =>
      rw [Spec.commas, holds_append, holds_append, holds_cons] at h
      refine ⟨h.1.1, hw f (by simp), ⟨44#8, h.1.2.1, Or.inl rfl⟩, ih (by simp) ?_ ?_ (fun x hx => hw x (List.mem_cons_of_mem _ hx))⟩
      · have := h.2
        rwa [List.length_append, List.length_singleton] at this
      · rw [← h0]; congr 1
        rw [Spec.commas]; simp; omega

theorem setMem_ok {mem : List Nat} {i v : Nat} (h : i < mem.length) : setMem mem i v = .ok (mem.set i v) := by
  simp [setMem, h]

theorem membersLoop_word {fin : Nat} {m : Mem} {mem : List Nat} {p mbr count : Nat} {f : List Byte} (h : m.Holds p f)
    (hw : Spec.Word f) (hf : p + f.length ≤ fin) :
    membersLoop fin m mem p mbr count = membersLoop fin m mem (p + f.length) mbr count := by
  induction f generalizing p with
  | nil => rfl
  | cons c f ih =>
    have h' := holds_cons.1 h
    obtain ⟨c0, _, _, c3⟩ := hw c (by simp)
    simp only [List.length_cons] at hf ⊢
    rw [membersLoop, if_pos (by omega), load_some h'.1, Res.ok_bind, if_neg c3]
    show (do let b ← m.load p; _) = _
    rw [load_some h'.1, Res.ok_bind, if_neg c0, ih h'.2 (fun x hx => hw x (by simp [hx])) (by omega)]
    rw [show p + 1 + f.length = p + (f.length + 1) by omega]

theorem membersLoop_sep {fin : Nat} {m : Mem} {mem : List Nat} {p mbr count : Nat} {b : Byte} (h : m p = some b)
    (hb : b = 44#8 ∨ b = 0#8) (hf : p < fin) (hc : count + 1 < 64) (hm : mem.length = 64) :
    membersLoop fin m mem p mbr count =
      membersLoop fin (m.upd p 0#8) (mem.set count mbr) (p + 1) (p + 1) (count + 1) := by
  rw [membersLoop, if_pos hf, load_some h, Res.ok_bind]
  have key : (if b = 44#8 then m.store p 0#8 else pure m) = .ok (m.upd p 0#8) := by
    rcases hb with rfl | rfl
    · rw [if_pos rfl, store_some h]
    · rw [if_neg (by decide), upd_zero h]; rfl
  rw [key, Res.ok_bind, load_some (upd_same _ _ _), Res.ok_bind, if_pos rfl, setMem_ok (by omega), Res.ok_bind,
    if_neg (by omega)]

theorem take_set_succ {mem : List Nat} {i v : Nat} (h : i < mem.length) :
    (mem.set i v).take (i + 1) = mem.take i ++ [v] := by
  rw [List.take_add_one, List.take_set_of_le (Nat.le_refl _), List.getElem?_set_self h]
  rfl

theorem membersLoop_eq {fin : Nat} {fs : List (List Byte)} {m : Mem} {mem : List Nat} {p count lo : Nat} (h : MFlds m p fs)
    (hf : p + width fs = fin) (hc : count + fs.length < 64) (hm : mem.length = 64) (hlo : lo ≤ p) :
    ∃ m' mem', membersLoop fin m mem p p count = .ok (m', mem', some (count + fs.length)) ∧ Cut seps3 lo fin fin m m' ∧
      Strs m' p fs ∧ mem'.length = 64 ∧ mem'.take (count + fs.length) = mem.take count ++ addrs p fs := by
  induction fs generalizing m mem p count with
  | nil =>
    refine ⟨m, mem, ?_, Cut.refl _ _ _ _ _, trivial, hm, by simp [addrs]⟩
    rw [membersLoop, if_neg (by simp at hf; omega)]; rfl
  | cons f fs ih =>
    obtain ⟨h1, h2, ⟨b, h3, h4⟩, h5⟩ := h
    simp only [width_cons, List.length_cons] at hf hc
    have hb : b ∈ seps3 ∨ b = 0#8 := by
      rcases h4 with rfl | rfl
      · left; decide
      · right; rfl
    have c1 : Cut seps3 lo fin fin m (m.upd (p + f.length) 0#8) := Cut.upd h3 hb (by omega) (by omega)
    have hrest : MFlds (m.upd (p + f.length) 0#8) (p + f.length + 1) fs := by
      have gen : ∀ (gs : List (List Byte)) (q : Nat), p + f.length < q → MFlds m q gs →
          MFlds (m.upd (p + f.length) 0#8) q gs := by
        intro gs
        induction gs with
        | nil => intros; trivial
        | cons g gs ihg =>
          rintro q hq ⟨g1, g2, ⟨c, g3, g4⟩, g5⟩
          exact ⟨g1.upd _ (by omega), g2, ⟨c, by rw [upd_ne (by omega)]; exact g3, g4⟩, ihg _ (by omega) g5⟩
      exact gen fs _ (by omega) h5
    obtain ⟨m', mem', e, c2, s2, l2, t2⟩ := ih (mem := mem.set count p) (count := count + 1) hrest (by omega) (by omega)
      (by simp [hm]) (by omega)
    have s1 : (m.upd (p + f.length) 0#8).IsStr p f :=
      ⟨h1.upd _ (by omega), upd_same _ _ _, fun x hx => (h2 x hx).1⟩
    refine ⟨m', mem', ?_, c1.trans c2 seps3_zero, ⟨c2.isStr s1 (word_seps3 h2) seps3_zero (by omega), h2, s2⟩, l2, ?_⟩
    · rw [membersLoop_word h1 h2 (by omega), membersLoop_sep h3 h4 (by omega) (by omega) hm, e]
      simp only [List.length_cons]
      congr 4; omega
    · rw [List.length_cons, show count + (fs.length + 1) = count + 1 + fs.length by omega, t2, take_set_succ (by omega),
        List.append_assoc]
      rfl

theorem knownLoop_eq {fin stop v : Nat} {fs : List (List Byte)} {m : Mem} {mem : List Nat} {p count : Nat} (hne : fs ≠ [])
    (h : Strs m p fs) (hv : p + width fs = v) (hf : v ≤ fin) (hc : count + fs.length < 64) (hm : mem.length = 64)
    (hstop : m.Holds stop (natBytes 8 v)) (hv64 : v < 18446744073709551616) :
    ∃ mem', knownLoop fin stop m mem p count = .ok (m, v, mem', some (count + fs.length)) ∧
      mem'.length = 64 ∧ mem'.take (count + fs.length) = mem.take count ++ addrs p fs := by
  induction fs generalizing mem p count with
  | nil => exact absurd rfl hne
  | cons f fs ih =>
    obtain ⟨h1, h2, h3⟩ := h
    simp only [width_cons, List.length_cons] at hv hc
    have hstep : knownLoop fin stop m mem p count =
        if p + f.length + 1 < v then knownLoop fin stop m (mem.set count p) (p + f.length + 1) (count + 1)
        else .ok (m, p + f.length + 1, mem.set count p, some (count + 1)) := by
      rw [knownLoop, tokenS_str h1 (word_field h2) (by omega), Res.ok_bind]
      dsimp only
      rw [setMem_ok (by omega), Res.ok_bind, if_neg (by omega), loadPtr_eq hstop hv64, Res.ok_bind]; rfl
    rw [hstep]
    by_cases hfs : fs = []
    · subst hfs
      simp only [width_nil] at hv
      refine ⟨mem.set count p, ?_, by simp [hm], ?_⟩
      · rw [if_neg (by omega)]
        simp only [List.length_cons, List.length_nil]
        rw [show p + f.length + 1 = v by omega]
      · simp only [List.length_cons, List.length_nil]
        rw [take_set_succ (by omega)]; rfl
    · have hpos : 0 < width fs := by
        cases fs with
        | nil => exact absurd rfl hfs
        | cons x xs => rw [width_cons]; omega
      rw [if_pos (by omega)]
      obtain ⟨mem', e, l2, t2⟩ := ih (mem := mem.set count p) (count := count + 1) hfs h3 (by omega) (by omega) (by simp [hm])
      refine ⟨mem', ?_, l2, ?_⟩
      · rw [e, List.length_cons, show count + 1 + fs.length = count + (fs.length + 1) by omega]
      · rw [List.length_cons, show count + (fs.length + 1) = count + 1 + fs.length by omega, t2, take_set_succ (by omega),
          List.append_assoc]
        rfl

/-! ### lines -/

/-- The bytes of a line. -/
def grWidth (l : Spec.GrLine) : Nat := l.name.length + 1 + (l.passwd.length + 1 + (l.gid.length + 1 + width l.members))

/-- A line that was read: all strings are cut. -/
def GrDone (m : Mem) (p : Nat) (l : Spec.GrLine) : Prop :=
  m.IsStr p l.name ∧ m.IsStr (p + l.name.length + 1) l.passwd ∧
    Fld m (p + l.name.length + 1 + l.passwd.length + 1) l.gid ∧
    Strs m (p + l.name.length + 1 + l.passwd.length + 1 + l.gid.length + 1) l.members

/-- The struct points into the line at `p`. -/
def GrAt (gr : Group) (p : Nat) (l : Spec.GrLine) : Prop :=
  gr.name = p ∧ gr.passwd = p + l.name.length + 1 ∧ gr.gid = Spec.decValue l.gid ∧ gr.mem.length = 64 ∧
    gr.mem.take l.members.length = addrs (p + l.name.length + 1 + l.passwd.length + 1 + l.gid.length + 1) l.members ∧
    gr.mem[l.members.length]? = some 0

theorem GrDone.cut {m m' : Mem} {p : Nat} {l : Spec.GrLine} {lo hi top : Nat} (h : GrDone m p l) (hg : l.Good)
    (hc : Cut seps3 lo hi top m m') (hp : p + grWidth l ≤ hi) : GrDone m' p l := by
  obtain ⟨h1, h2, h3, h4⟩ := h
  unfold grWidth at hp
  refine ⟨hc.isStr h1 (word_seps3 hg.1) seps3_zero (by omega), hc.isStr h2 (word_seps3 hg.2.2.1) seps3_zero (by omega),
    h3.cut hc (word_seps3 (number_word hg.2.2.2.1)) (by omega), h4.cut hc (by omega)⟩

theorem commas_field {fs : List (List Byte)} (h : ∀ f ∈ fs, Spec.Word f) : Spec.Field (Spec.commas fs) := by
  induction fs with
  | nil => intro b hb; cases hb
  | cons f fs ih =>
    cases fs with
    | nil => exact word_field (h f (by simp))
    | cons g fs =>
      intro b hb
      rw [Spec.commas, List.mem_append, List.mem_append] at hb
      rcases hb with (hb | hb) | hb
      · exact word_field (h f (by simp)) b hb
      · rw [List.mem_singleton.1 hb]; decide
      · exact ih (fun x hx => h x (List.mem_cons_of_mem _ hx)) b hb

theorem length_grText_line {l : Spec.GrLine} (h : l.members ≠ []) : l.text.length = grWidth l := by
  unfold Spec.GrLine.text grWidth
  rw [length_lineText, ← length_commas h]
  simp

theorem seps_sub : ∀ b ∈ seps, b ∈ seps3 := by decide

/-- The first reading of a line. -/
theorem getgrentOpen_first {m : Mem} {f : Userdb} {gr : Group} {p cell : Nat} {l : Spec.GrLine} (hg : l.Good)
    (hp : f.p = p) (hp2 : f.p2 = cell) (ht : m.Holds p l.text) (hfin : p + grWidth l ≤ f.file + f.size)
    (hcell : f.file + f.size ≤ cell) (hz : m.Holds cell (natBytes 8 0)) (hm : gr.mem.length = 64) :
    ∃ m1 gr', getgrentOpen m f gr =
        .ok ({ m := m1.write cell (natBytes 8 (p + grWidth l)), f := { f with p := p + grWidth l, p2 := cell + 8 }, gr := gr' }, true) ∧
      Cut seps3 p (p + grWidth l) (p + grWidth l) m m1 ∧ GrDone m1 p l ∧ GrAt gr' p l := by
  obtain ⟨g1, g2, g3, g4, g5, g6, g7⟩ := hg
  have hF : Flds m p [l.name, l.passwd, l.gid, Spec.commas l.members] :=
    flds_lineText ht (by
      intro x hx
      simp only [List.mem_cons, List.not_mem_nil, or_false] at hx
      rcases hx with rfl | rfl | rfl | rfl
      · exact word_field g1
      · exact word_field g3
      · exact word_field (number_word g4)
      · exact commas_field g6)
  have hlc := length_commas g5
  have hw : grWidth l = l.name.length + 1 + (l.passwd.length + 1 + (l.gid.length + 1 + width l.members)) := rfl
  have hpos : p < f.file + f.size := by omega
  -- the tokens; `top` of all cuts is the end of the line
  have f1 := hF.1
  obtain ⟨b1, hb1, hb1'⟩ := f1.2.2
  have e1 := tokenS_fld (fin := f.file + f.size) f1 (by omega)
  have c1 : Cut seps p (p + grWidth l) (p + grWidth l) m (m.upd (p + l.name.length) 0#8) := Cut.upd hb1 hb1' (by omega) (by omega)
  generalize hm1 : m.upd (p + l.name.length) 0#8 = m1 at e1 c1
  have s1 : m1.IsStr p l.name := by
    rw [← hm1]
    exact ⟨f1.1.upd _ (by omega), upd_same _ _ _, fun x hx => (g1 x hx).1⟩
  have F2 := hF.2.cut c1 (flds_clean hF.2) (by simp; omega)
  obtain ⟨b2, hb2, hb2'⟩ := F2.1.2.2
  have e2 := tokenS_fld (fin := f.file + f.size) F2.1 (by omega)
  have c2 : Cut seps p (p + grWidth l) (p + grWidth l) m1 (m1.upd (p + l.name.length + 1 + l.passwd.length) 0#8) :=
    Cut.upd hb2 hb2' (by omega) (by omega)
  generalize hm2 : m1.upd (p + l.name.length + 1 + l.passwd.length) 0#8 = m2 at e2 c2
  have s2 : m2.IsStr (p + l.name.length + 1) l.passwd := by
    rw [← hm2]
    exact ⟨F2.1.1.upd _ (by omega), upd_same _ _ _, fun x hx => (g3 x hx).1⟩
  have F3 := F2.2.cut c2 (flds_clean F2.2) (by simp; omega)
  have e3 := tokenI_fld (fin := f.file + f.size) F3.1 (by omega) g4
  have F4 := F3.2.1
  obtain ⟨b4, hb4, hb4'⟩ := F4.2.2
  have e4 := tokenS_fld (fin := f.file + f.size) F4 (by omega)
  have c4 : Cut seps p (p + grWidth l) (p + grWidth l) m2
      (m2.upd (p + l.name.length + 1 + l.passwd.length + 1 + l.gid.length + 1 + (Spec.commas l.members).length) 0#8) :=
    Cut.upd hb4 hb4' (by omega) (by omega)
  generalize hm4 : m2.upd (p + l.name.length + 1 + l.passwd.length + 1 + l.gid.length + 1 + (Spec.commas l.members).length) 0#8 = m4
    at e4 c4
  have M : MFlds m4 (p + l.name.length + 1 + l.passwd.length + 1 + l.gid.length + 1) l.members := by
    refine mflds_commas g5 ?_ ?_ g6
    · rw [← hm4]; exact F4.1.upd _ (by omega)
    · rw [← hm4]; exact upd_same _ _ _
  obtain ⟨m5, mem', e5, c5, s5, l5, t5⟩ := membersLoop_eq (mem := gr.mem) (count := 0)
    (lo := p) M (fin := p + grWidth l) (by omega) (by omega) hm (by omega)
  simp only [Nat.zero_add, List.take_zero, List.nil_append] at e5 t5
  have c14 := (c1.trans c2 seps_zero).trans c4 seps_zero
  have c14' : Cut seps3 p (p + grWidth l) (p + grWidth l) m m4 := c14.mono seps_sub (Nat.le_refl _) (Nat.le_refl _)
  have c15 := c14'.trans c5 seps3_zero
  have hz1 : ∀ {x : Mem}, Cut seps p (p + grWidth l) (p + grWidth l) m x → x.Holds cell (natBytes 8 0) := by
    intro x hx i hi
    rcases hx (cell + i) with h | ⟨_, h, _⟩ | ⟨h1, h2, _⟩
    · rw [h]; exact hz i hi
    · omega
    · omega
  have hmap : m5.Mapped cell 8 := by
    intro i hi
    rcases c15 (cell + i) with h | ⟨_, h, _⟩ | ⟨h1, h2, _⟩
    · rw [h]; exact ⟨_, hz i (by rw [length_natBytes]; exact hi)⟩
    · omega
    · omega
  obtain ⟨b, hb, hb0⟩ := isStr_first_ne s1 g2
  have F3' : Fld m5 (p + l.name.length + 1 + l.passwd.length + 1) l.gid :=
    (F3.1.cut c4 (field_seps F3.1.2.1) (by omega)).cut c5 (word_seps3 (number_word g4)) (by omega)
  have s1' : m5.IsStr p l.name := c5.isStr (c4.isStr (c2.isStr s1 (field_seps (word_field g1)) seps_zero (by omega))
    (field_seps (word_field g1)) seps_zero (by omega)) (word_seps3 g1) seps3_zero (by omega)
  have s2' : m5.IsStr (p + l.name.length + 1) l.passwd := c5.isStr (c4.isStr s2 (field_seps (word_field g3)) seps_zero (by omega))
    (word_seps3 g3) seps3_zero (by omega)
  refine ⟨m5, { name := p, passwd := p + l.name.length + 1, gid := toId (Spec.decValue l.gid : Nat), mem := mem'.set l.members.length 0 },
    ?_, c15, ⟨s1', s2', F3', s5⟩, rfl, rfl, toId_nat g4.2, by simp [l5], ?_, ?_⟩
  · unfold getgrentOpen
    rw [hp, if_neg (by omega), e1, Res.ok_bind]; dsimp only
    rw [hb, Res.ok_bind, if_neg hb0, e2, Res.ok_bind]; dsimp only
    rw [e3, Res.ok_bind]; dsimp only
    unfold grMembers
    rw [hp2, loadPtr_eq (hz1 (c1.trans c2 seps_zero)) (by omega), Res.ok_bind, if_pos rfl, e4, Res.ok_bind]; dsimp only
    have hend : p + l.name.length + 1 + l.passwd.length + 1 + l.gid.length + 1 + (Spec.commas l.members).length + 1 = p + grWidth l := by
      omega
    rw [hend, e5, Res.ok_bind]
    unfold grFirst
    dsimp only
    rw [hp2, storePtr_eq hmap, Res.ok_bind, setMem_ok (by omega), Res.ok_bind]; rfl
  · rw [List.take_set_of_le (Nat.le_refl _)]; exact t5
  · rw [List.getElem?_set_self (by omega)]

/-- A later reading of a line. -/
theorem getgrentOpen_again {m : Mem} {f : Userdb} {gr : Group} {p cell : Nat} {l : Spec.GrLine} (hg : l.Good)
    (hp : f.p = p) (hp2 : f.p2 = cell) (hd : GrDone m p l) (hfin : p + grWidth l ≤ f.file + f.size)
    (hz : m.Holds cell (natBytes 8 (p + grWidth l))) (h64 : p + grWidth l < 18446744073709551616) (hm : gr.mem.length = 64) :
    ∃ gr', getgrentOpen m f gr =
        .ok ({ m := m, f := { f with p := p + grWidth l, p2 := cell + 8 }, gr := gr' }, true) ∧ GrAt gr' p l := by
  obtain ⟨g1, g2, g3, g4, g5, g6, g7⟩ := hg
  obtain ⟨s1, s2, F3, s4⟩ := hd
  have hw : grWidth l = l.name.length + 1 + (l.passwd.length + 1 + (l.gid.length + 1 + width l.members)) := rfl
  have e1 := tokenS_str (fin := f.file + f.size) s1 (word_field g1) (by omega)
  have e2 := tokenS_str (fin := f.file + f.size) s2 (word_field g3) (by omega)
  have e3 := tokenI_fld (fin := f.file + f.size) F3 (by omega) g4
  obtain ⟨mem', e5, l5, t5⟩ := knownLoop_eq (mem := gr.mem) (count := 0) (fin := f.file + f.size) g5 s4
    (v := p + grWidth l) (by omega) hfin (by omega) hm hz h64
  simp only [Nat.zero_add, List.take_zero, List.nil_append] at e5 t5
  obtain ⟨b, hb, hb0⟩ := isStr_first_ne s1 g2
  refine ⟨{ name := p, passwd := p + l.name.length + 1, gid := toId (Spec.decValue l.gid : Nat), mem := mem'.set l.members.length 0 },
    ?_, rfl, rfl, toId_nat g4.2, by simp [l5], ?_, ?_⟩
  · unfold getgrentOpen
    rw [hp, if_neg (by omega), e1, Res.ok_bind]; dsimp only
    rw [hb, Res.ok_bind, if_neg hb0, e2, Res.ok_bind]; dsimp only
    rw [e3, Res.ok_bind]; dsimp only
    unfold grMembers
    rw [hp2, loadPtr_eq hz h64, Res.ok_bind, if_neg (by omega)]; dsimp only
    rw [e5, Res.ok_bind]
    unfold grAgain
    dsimp only
    rw [setMem_ok (by omega), Res.ok_bind, hp2]; rfl
  · rw [List.take_set_of_le (Nat.le_refl _)]; exact t5
  · rw [List.getElem?_set_self (by omega)]

end Minilib

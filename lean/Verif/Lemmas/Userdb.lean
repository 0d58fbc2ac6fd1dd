import Verif.Model.Userdb
import Verif.Spec.Userdb
import Verif.Props.Str
/-
Lemmas about the tokenizer of the user database.
-/

set_option autoImplicit false

namespace Minilib
open Mem

/-- What the tokenizer does to memory: separators of `S` inside `[lo,hi)` become NUL; the bytes of `[hi,top)` are free. -/
def Cut (S : List Byte) (lo hi top : Nat) (m m' : Mem) : Prop :=
  ∀ a, m' a = m a ∨ (lo ≤ a ∧ a < hi ∧ (∃ b ∈ S, m a = some b) ∧ m' a = some 0#8) ∨
    (hi ≤ a ∧ a < top ∧ (m a).isSome = true ∧ (m' a).isSome = true)

theorem Cut.refl (S : List Byte) (lo hi top : Nat) (m : Mem) : Cut S lo hi top m m := fun _ => Or.inl rfl

theorem Cut.trans {S : List Byte} {lo hi top : Nat} {m m' m'' : Mem} (h : Cut S lo hi top m m')
    (h' : Cut S lo hi top m' m'') (h0 : 0#8 ∉ S) : Cut S lo hi top m m'' := by
  intro a
  rcases h a with e | ⟨e1, e2, e3, e4⟩ | ⟨e1, e2, e3, e4⟩
  · rcases h' a with g | ⟨g1, g2, g3, g4⟩ | ⟨g1, g2, g3, g4⟩
    · exact Or.inl (g.trans e)
    · exact Or.inr (Or.inl ⟨g1, g2, by rwa [e] at g3, g4⟩)
    · exact Or.inr (Or.inr ⟨g1, g2, by rwa [e] at g3, g4⟩)
  · rcases h' a with g | ⟨g1, g2, ⟨b, g3, g5⟩, g4⟩ | ⟨g1, g2, g3, g4⟩
    · exact Or.inr (Or.inl ⟨e1, e2, e3, g.trans e4⟩)
    · rw [e4] at g5; cases g5; exact absurd g3 h0
    · omega
  · rcases h' a with g | ⟨g1, g2, g3, g4⟩ | ⟨g1, g2, g3, g4⟩
    · exact Or.inr (Or.inr ⟨e1, e2, e3, by rw [g]; exact e4⟩)
    · omega
    · exact Or.inr (Or.inr ⟨e1, e2, e3, g4⟩)

theorem Cut.upd {S : List Byte} {lo hi top : Nat} {m : Mem} {a : Nat} {b : Byte} (hb : m a = some b)
    (hS : b ∈ S ∨ b = 0#8) (h1 : lo ≤ a) (h2 : a < hi) : Cut S lo hi top m (m.upd a 0#8) := by
  intro x
  by_cases hx : x = a
  · subst hx
    rcases hS with hS | hS
    · exact Or.inr (Or.inl ⟨h1, h2, ⟨b, hS, hb⟩, upd_same _ _ _⟩)
    · left; rw [upd_same, hb, hS]
  · left; exact upd_ne hx

/-- A byte that is no separator stays. -/
theorem Cut.keep {S : List Byte} {lo hi top : Nat} {m m' : Mem} (h : Cut S lo hi top m m') {a : Nat} {b : Byte}
    (hb : m a = some b) (hS : b ∉ S) (ha : a < hi ∨ top ≤ a) : m' a = some b := by
  rcases h a with e | ⟨_, _, ⟨c, e3, e5⟩, _⟩ | ⟨e1, e2, _, _⟩
  · rw [e, hb]
  · rw [hb] at e5; cases e5; exact absurd e3 hS
  · omega

theorem Cut.holds {S : List Byte} {lo hi top : Nat} {m m' : Mem} (h : Cut S lo hi top m m') {p : Nat} {l : List Byte}
    (hl : m.Holds p l) (hS : ∀ b ∈ l, b ∉ S) (hp : p + l.length ≤ hi ∨ top ≤ p ∨ top ≤ hi) : m'.Holds p l := by
  intro i hi'
  exact h.keep (hl i hi') (hS _ (List.getElem_mem hi')) (by omega)

theorem Cut.isStr {S : List Byte} {lo hi top : Nat} {m m' : Mem} (h : Cut S lo hi top m m') {p : Nat} {s : List Byte}
    (hl : m.IsStr p s) (hS : ∀ b ∈ s, b ∉ S) (h0 : 0#8 ∉ S) (hp : p + s.length < hi ∨ top ≤ p ∨ top ≤ hi) : m'.IsStr p s :=
  ⟨h.holds hl.1 hS (by omega), h.keep hl.2.1 h0 (by omega), hl.2.2⟩

/-- The separators. -/
abbrev seps : List Byte := [58#8, 10#8]

/-- The field `f` starts at `p` and ends with a separator or a NUL. -/
def Fld (m : Mem) (p : Nat) (f : List Byte) : Prop :=
  m.Holds p f ∧ Spec.Field f ∧ ∃ b, m (p + f.length) = some b ∧ (b ∈ seps ∨ b = 0#8)

/-- The fields `fs` are one behind the other from `p` on. -/
def Flds (m : Mem) : Nat → List (List Byte) → Prop
  | _, [] => True
  | p, f :: fs => Fld m p f ∧ Flds m (p + f.length + 1) fs

/-- The bytes that fields occupy. -/
def width (fs : List (List Byte)) : Nat := (fs.map (fun f => f.length + 1)).sum

@[simp] theorem width_nil : width [] = 0 := rfl
@[simp] theorem width_cons (f : List Byte) (fs : List (List Byte)) : width (f :: fs) = f.length + 1 + width fs := by
  simp [width]
@[simp] theorem width_append (a b : List (List Byte)) : width (a ++ b) = width a + width b := by simp [width]

theorem flds_append {m : Mem} {p : Nat} {a b : List (List Byte)} :
    Flds m p (a ++ b) ↔ Flds m p a ∧ Flds m (p + width a) b := by
  induction a generalizing p with
  | nil => simp [Flds]
  | cons f a ih =>
    simp only [List.cons_append, Flds, ih, width_cons]
    rw [show p + f.length + 1 + width a = p + (f.length + 1 + width a) by omega]
    exact and_assoc.symm

theorem field_seps {f : List Byte} (h : Spec.Field f) : ∀ b ∈ f, b ∉ seps := by
  intro b hb
  obtain ⟨_, h1, h2⟩ := h b hb
  simp [h1, h2]

theorem Fld.cut {m m' : Mem} {p : Nat} {f : List Byte} {S : List Byte} {lo hi top : Nat} (h : Fld m p f)
    (hc : Cut S lo hi top m m') (hS : ∀ b ∈ f, b ∉ S) (hp : p + f.length < hi ∨ top ≤ p ∨ top ≤ hi) : Fld m' p f := by
  obtain ⟨h1, h2, b, h3, h4⟩ := h
  refine ⟨hc.holds h1 hS (by omega), h2, ?_⟩
  rcases hc (p + f.length) with e | ⟨_, _, _, e⟩ | ⟨e1, e2, _⟩
  · exact ⟨b, by rw [e, h3], h4⟩
  · exact ⟨0#8, e, Or.inr rfl⟩
  · omega

theorem Flds.cut {m m' : Mem} {p : Nat} {fs : List (List Byte)} {S : List Byte} {lo hi top : Nat} (h : Flds m p fs)
    (hc : Cut S lo hi top m m') (hS : ∀ f ∈ fs, ∀ b ∈ f, b ∉ S) (hp : p + width fs ≤ hi) : Flds m' p fs := by
  induction fs generalizing p with
  | nil => trivial
  | cons f fs ih =>
    simp only [width_cons] at hp
    exact ⟨h.1.cut hc (hS f (by simp)) (by omega), ih h.2 (fun g hg => hS g (by simp [hg])) (by omega)⟩

theorem flds_clean {m : Mem} {p : Nat} {fs : List (List Byte)} (h : Flds m p fs) : ∀ f ∈ fs, ∀ b ∈ f, b ∉ seps := by
  induction fs generalizing p with
  | nil => simp
  | cons f fs ih =>
    intro g hg
    rcases List.mem_cons.1 hg with rfl | hg
    · exact field_seps h.1.2.1
    · exact ih h.2 g hg

theorem tokenSLoop_fld {fin : Nat} {m : Mem} {p : Nat} {f : List Byte} (h : Fld m p f) (hf : p + f.length < fin) :
    tokenSLoop fin m p = .ok (m.upd (p + f.length) 0#8, p + f.length) := by
  induction f generalizing p with
  | nil =>
    obtain ⟨_, _, b, hb, hs⟩ := h
    simp only [List.length_nil, Nat.add_zero] at hb hf ⊢
    have hend : tokenSLoop fin (m.upd p 0#8) p = .ok (m.upd p 0#8, p) := by
      rw [tokenSLoop, if_pos hf, load_some (upd_same _ _ _), Res.ok_bind, if_pos rfl]; rfl
    by_cases h0 : b = 0#8
    · subst h0
      have : m.upd p 0#8 = m := by
        funext x
        by_cases hx : x = p
        · subst hx; rw [upd_same, hb]
        · exact upd_ne hx
      rw [this] at hend ⊢
      exact hend
    · have hs : b = 58#8 ∨ b = 10#8 := by
        rcases hs with hs | hs
        · simpa using hs
        · exact absurd hs h0
      rw [tokenSLoop, if_pos hf, load_some hb, Res.ok_bind, if_neg h0, if_pos hs, store_some hb, Res.ok_bind, hend]
  | cons c f ih =>
    obtain ⟨h1, h2, b, hb, hs⟩ := h
    have h1' := holds_cons.1 h1
    obtain ⟨c0, c1, c2⟩ := h2 c (by simp)
    simp only [List.length_cons] at hb hf ⊢
    rw [tokenSLoop, if_pos (by omega), load_some h1'.1, Res.ok_bind, if_neg c0, if_neg (by simp [c1, c2]),
      ih ⟨h1'.2, fun x hx => h2 x (by simp [hx]), b, by rw [← hb]; congr 1; omega, hs⟩ (by omega)]
    rw [show p + 1 + f.length = p + (f.length + 1) by omega]

/-- `token_s` at the start of a field. -/
theorem tokenS_fld {fin : Nat} {m : Mem} {p : Nat} {f : List Byte} (h : Fld m p f) (hf : p + f.length < fin) :
    tokenS fin m p = .ok (m.upd (p + f.length) 0#8, p + f.length + 1) := by
  rw [tokenS, tokenSLoop_fld h hf]; rfl

/-- The memory after `token_s`: a cut memory in which the field is a string. -/
theorem tokenS_cut {fin : Nat} {m : Mem} {p : Nat} {f : List Byte} (h : Fld m p f) (hf : p + f.length < fin) {lo : Nat}
    (hlo : lo ≤ p) (top : Nat) :
    ∃ m', tokenS fin m p = .ok (m', p + f.length + 1) ∧ Cut seps lo fin top m m' ∧ m'.IsStr p f := by
  obtain ⟨h1, h2, b, h3, h4⟩ := h
  refine ⟨_, tokenS_fld ⟨h1, h2, b, h3, h4⟩ hf, Cut.upd h3 h4 (by omega) hf, ?_, upd_same _ _ _, ?_⟩
  · exact h1.upd _ (by omega)
  · exact fun x hx => (h2 x hx).1

theorem toInt_digit {b : Byte} (h : Spec.IsDigit b) : b.toInt = (b.toNat : Int) := by
  obtain ⟨h1, h2⟩ := h
  rw [BitVec.toInt_eq_toNat_cond, if_pos (by omega)]

theorem toInt_digit_iff {b : Byte} : (48 ≤ b.toInt ∧ b.toInt ≤ 57) ↔ Spec.IsDigit b := by
  constructor
  · rintro ⟨h1, h2⟩
    rw [BitVec.toInt_eq_toNat_cond] at h1 h2
    have := b.isLt
    unfold Spec.IsDigit
    split at h1 <;> split at h2 <;> omega
  · intro h
    rw [toInt_digit h]
    obtain ⟨h1, h2⟩ := h
    omega

/-- The value of digits behind a prefix of value `i`. -/
def decFrom (i : Nat) (l : List Byte) : Nat := l.foldl (fun n b => 10 * n + (b.toNat - 48)) i

theorem decFrom_le (i : Nat) (l : List Byte) : i ≤ decFrom i l := by
  induction l generalizing i with
  | nil => exact Nat.le_refl _
  | cons b l ih => exact Nat.le_trans (by omega) (ih (10 * i + (b.toNat - 48)))

theorem tokenIStep_eq {i : Nat} {b : Byte} (hb : Spec.IsDigit b) (h : 10 * i + (b.toNat - 48) ≤ 2147483647) :
    tokenIStep (i : Int) b = .ok ((10 * i + (b.toNat - 48) : Nat) : Int) := by
  have hd := toInt_digit hb
  obtain ⟨h1, h2⟩ := hb
  unfold tokenIStep
  rw [if_pos (by omega), ckInt_ok (by omega) (by omega), Res.ok_bind, ckInt_ok (by omega) (by omega), Res.ok_bind,
    ckInt_ok (by omega) (by omega), Res.ok_bind, ckInt_ok (by omega) (by omega)]
  congr 1; omega

theorem tokenILoop_fld {fin : Nat} {m : Mem} {p : Nat} {f : List Byte} {i : Nat} {b : Byte} (h : m.Holds p f)
    (hb : m (p + f.length) = some b) (hs : ¬ Spec.IsDigit b) (hd : ∀ c ∈ f, Spec.IsDigit c) (hf : p + f.length < fin)
    (hv : decFrom i f ≤ 2147483647) : tokenILoop fin m p i = .ok ((decFrom i f : Nat), p + f.length) := by
  induction f generalizing p i with
  | nil =>
    simp only [List.length_nil, Nat.add_zero] at hb hf ⊢
    rw [tokenILoop, if_pos hf, load_some hb, Res.ok_bind, if_neg (by rw [toInt_digit_iff]; exact hs)]; rfl
  | cons c f ih =>
    have h' := holds_cons.1 h
    have hc := hd c (by simp)
    simp only [List.length_cons] at hb hf ⊢
    have hv' : decFrom (10 * i + (c.toNat - 48)) f ≤ 2147483647 := hv
    rw [tokenILoop, if_pos (by omega), load_some h'.1, Res.ok_bind, if_pos (toInt_digit_iff.2 hc),
      tokenIStep_eq hc (Nat.le_trans (decFrom_le _ f) hv'), Res.ok_bind,
      ih h'.2 (by rw [← hb]; congr 1; omega) (fun x hx => hd x (by simp [hx])) (by omega) hv']
    rw [show p + 1 + f.length = p + (f.length + 1) by omega]; rfl

/-- `token_i` at the start of a number. -/
theorem tokenI_fld {fin : Nat} {m : Mem} {p : Nat} {f : List Byte} (h : Fld m p f) (hf : p + f.length < fin)
    (hn : Spec.Number f) : tokenI fin m p = .ok ((Spec.decValue f : Nat), p + f.length + 1) := by
  obtain ⟨h1, h2, b, h3, h4⟩ := h
  have hs : ¬ Spec.IsDigit b := by
    rcases h4 with h4 | rfl
    · simp only [seps, List.mem_cons, List.not_mem_nil, or_false] at h4
      rcases h4 with rfl | rfl <;> decide
    · decide
  have := tokenILoop_fld (i := 0) h1 h3 hs hn.1 hf hn.2
  rw [tokenI, show (0 : Int) = ((0 : Nat) : Int) from rfl, this]; rfl

theorem toId_nat {n : Nat} (h : n ≤ 2147483647) : toId (n : Int) = n := by
  unfold toId; omega

/-- The struct represents the line. -/
def PwRep (m : Mem) (w : Passwd) (l : Spec.PwLine) : Prop :=
  m.IsStr w.name l.name ∧ m.IsStr w.passwd l.passwd ∧ w.uid = Spec.decValue l.uid ∧ w.gid = Spec.decValue l.gid ∧
    m.IsStr w.gecos l.gecos ∧ m.IsStr w.dir l.dir ∧ m.IsStr w.shell l.shell

/-- All strings of the struct lie in `[lo,hi)`. -/
def PwIn (w : Passwd) (l : Spec.PwLine) (lo hi : Nat) : Prop :=
  lo ≤ w.name ∧ w.name + l.name.length < hi ∧ w.passwd + l.passwd.length < hi ∧ w.gecos + l.gecos.length < hi ∧
    w.dir + l.dir.length < hi ∧ w.shell + l.shell.length < hi ∧ lo ≤ w.passwd ∧ lo ≤ w.gecos ∧ lo ≤ w.dir ∧ lo ≤ w.shell

theorem PwRep.cut {m m' : Mem} {w : Passwd} {l : Spec.PwLine} {lo hi top : Nat} (h : PwRep m w l) (hg : l.Good)
    (hi' : PwIn w l lo hi) (hc : Cut seps lo hi top m m') : PwRep m' w l := by
  obtain ⟨h1, h2, h3, h4, h5, h6, h7⟩ := h
  obtain ⟨_, i1, i2, i3, i4, i5, _⟩ := hi'
  have hz : (0#8 : Byte) ∉ seps := by decide
  exact ⟨hc.isStr h1 (field_seps (hg.1 _ (by simp [Spec.PwLine.fields]))) hz (Or.inl i1),
    hc.isStr h2 (field_seps (hg.1 _ (by simp [Spec.PwLine.fields]))) hz (Or.inl i2), h3, h4,
    hc.isStr h5 (field_seps (hg.1 _ (by simp [Spec.PwLine.fields]))) hz (Or.inl i3),
    hc.isStr h6 (field_seps (hg.1 _ (by simp [Spec.PwLine.fields]))) hz (Or.inl i4),
    hc.isStr h7 (field_seps (hg.1 _ (by simp [Spec.PwLine.fields]))) hz (Or.inl i5)⟩

theorem seps_zero : (0#8 : Byte) ∉ seps := by decide

theorem skipTokens_eq {fin : Nat} {fs : List (List Byte)} {m : Mem} {p lo : Nat} (top : Nat) (h : Flds m p fs)
    (hf : p + width fs ≤ fin) (hlo : lo ≤ p) :
    ∃ m', skipTokens fin fs.length m p = .ok (m', p + width fs) ∧ Cut seps lo fin top m m' := by
  induction fs generalizing m p with
  | nil => exact ⟨m, rfl, Cut.refl _ _ _ _ _⟩
  | cons f fs ih =>
    simp only [width_cons] at hf
    obtain ⟨m1, e1, c1, _⟩ := tokenS_cut h.1 (by omega) hlo top (fin := fin)
    obtain ⟨m2, e2, c2⟩ := ih (h.2.cut c1 (flds_clean h.2) (by omega)) (by omega) (by omega)
    refine ⟨m2, ?_, c1.trans c2 seps_zero⟩
    rw [List.length_cons, skipTokens, e1, Res.ok_bind, e2, width_cons]
    congr 2; omega

/-- The last three fields of a line. -/
theorem pwTail_eq {fin : Nat} {m : Mem} {p lo : Nat} (top : Nat) {a b c : List Byte} (h : Flds m p [a, b, c])
    (hf : p + width [a, b, c] ≤ fin) (hlo : lo ≤ p) :
    ∃ m1 m2 m3, tokenS fin m p = .ok (m1, p + a.length + 1) ∧
      tokenS fin m1 (p + a.length + 1) = .ok (m2, p + a.length + 1 + b.length + 1) ∧
      tokenS fin m2 (p + a.length + 1 + b.length + 1) = .ok (m3, p + width [a, b, c]) ∧
      Cut seps lo fin top m m3 ∧ m3.IsStr p a ∧ m3.IsStr (p + a.length + 1) b ∧
      m3.IsStr (p + a.length + 1 + b.length + 1) c := by
  simp only [width_cons, width_nil] at hf
  have ha := field_seps h.1.2.1
  have hb := field_seps h.2.1.2.1
  obtain ⟨m1, e1, c1, s1⟩ := tokenS_cut h.1 (by omega) hlo top (fin := fin)
  have h2 := h.2.cut c1 (flds_clean h.2) (by simp; omega)
  obtain ⟨m2, e2, c2, s2⟩ := tokenS_cut h2.1 (by omega) (lo := lo) (by omega) top (fin := fin)
  have h3 := h2.2.cut c2 (flds_clean h2.2) (by simp; omega)
  obtain ⟨m3, e3, c3, s3⟩ := tokenS_cut h3.1 (by omega) (lo := lo) (by omega) top (fin := fin)
  refine ⟨m1, m2, m3, e1, e2, ?_, (c1.trans c2 seps_zero).trans c3 seps_zero, ?_, ?_, s3⟩
  · rw [e3]; simp only [width_cons, width_nil]; congr 2; omega
  · exact c3.isStr (c2.isStr s1 ha seps_zero (by omega)) ha seps_zero (by omega)
  · exact c3.isStr s2 hb seps_zero (by omega)

theorem pwFields_eq {fin : Nat} {m : Mem} {name p lo : Nat} (top : Nat) {l : Spec.PwLine} (hg : l.Good)
    (hn : m.IsStr name l.name) (hnp : name + l.name.length < p) (hln : lo ≤ name)
    (h : Flds m p [l.passwd, l.uid, l.gid, l.gecos, l.dir, l.shell])
    (hf : p + width [l.passwd, l.uid, l.gid, l.gecos, l.dir, l.shell] ≤ fin) :
    ∃ m' w, pwFields fin m name p = .ok (m', p + width [l.passwd, l.uid, l.gid, l.gecos, l.dir, l.shell], w) ∧
      Cut seps lo fin top m m' ∧ PwRep m' w l ∧ PwIn w l lo fin ∧ w.name = name := by
  have hw := hf
  simp only [width_cons, width_nil] at hw
  have hp := field_seps h.1.2.1
  have hnn := field_seps (hg.1 l.name (by simp [Spec.PwLine.fields]))
  obtain ⟨m1, e1, c1, s1⟩ := tokenS_cut h.1 (by omega) (lo := lo) (by omega) top (fin := fin)
  have h2 := h.2.cut c1 (flds_clean h.2) (by simp; omega)
  have eu := tokenI_fld h2.1 (fin := fin) (by omega) hg.2.2.1
  have eg := tokenI_fld h2.2.1 (fin := fin) (by omega) hg.2.2.2
  obtain ⟨m3, m4, m5, e3, e4, e5, c5, s3, s4, s5⟩ :=
    pwTail_eq (fin := fin) (lo := lo) top h2.2.2 (by simp; omega) (by omega)
  have k := c1.trans c5 seps_zero
  have sn : m5.IsStr name l.name := k.isStr hn hnn seps_zero (by omega)
  have sp : m5.IsStr p l.passwd := c5.isStr s1 hp seps_zero (by omega)
  refine ⟨m5, { name := name, passwd := p, uid := toId (Spec.decValue l.uid : Nat), gid := toId (Spec.decValue l.gid : Nat), gecos := _, dir := _, shell := _ },
    ?_, k, ⟨sn, sp, ?_, ?_, s3, s4, s5⟩, ?_, rfl⟩
  · unfold pwFields
    rw [e1, Res.ok_bind]; dsimp only
    rw [eu, Res.ok_bind]; dsimp only
    rw [eg, Res.ok_bind]; dsimp only
    rw [e3, Res.ok_bind]; dsimp only
    rw [e4, Res.ok_bind]; dsimp only
    rw [e5, Res.ok_bind]
    simp only [width_cons, width_nil]
    refine congrArg Res.ok (congrArg (Prod.mk _) (Prod.ext ?_ rfl))
    dsimp only; omega
  · exact toId_nat hg.2.2.1.2
  · exact toId_nat hg.2.2.2.2
  · simp only [PwIn]
    refine ⟨hln, ?_, ?_, ?_, ?_, ?_⟩ <;> omega

/-- The fields of all lines. -/
def allFields (ls : List Spec.PwLine) : List (List Byte) := ls.flatMap (·.fields)

theorem allFields_cons (l : Spec.PwLine) (ls : List Spec.PwLine) : allFields (l :: ls) = l.fields ++ allFields ls := by
  simp [allFields]

theorem allFields_append (a b : List Spec.PwLine) : allFields (a ++ b) = allFields a ++ allFields b := by
  simp [allFields]

theorem length_lineText (fs : List (List Byte)) : (Spec.lineText fs).length = width fs := by
  induction fs with
  | nil => rfl
  | cons f fs ih =>
    cases fs with
    | nil => simp [Spec.lineText]
    | cons g fs =>
      rw [Spec.lineText, List.length_append, List.length_append, ih]
      simp

theorem length_pwText (ls : List Spec.PwLine) : (Spec.pwText ls).length = width (allFields ls) := by
  induction ls with
  | nil => rfl
  | cons l ls ih =>
    rw [allFields_cons, width_append, ← ih, ← length_lineText]
    simp [Spec.pwText]

theorem flds_lineText {m : Mem} {p : Nat} {fs : List (List Byte)} (h : m.Holds p (Spec.lineText fs))
    (hg : ∀ f ∈ fs, Spec.Field f) : Flds m p fs := by
  induction fs generalizing p with
  | nil => trivial
  | cons f fs ih =>
    cases fs with
    | nil =>
      rw [Spec.lineText, holds_append, holds_cons] at h
      exact ⟨⟨h.1, hg f (by simp), 10#8, h.2.1, by simp⟩, trivial⟩
    | cons g fs =>
      rw [Spec.lineText, holds_append, holds_append, holds_cons] at h
      refine ⟨⟨h.1.1, hg f (by simp), 58#8, h.1.2.1, by simp⟩, ih ?_ (fun x hx => hg x (List.mem_cons_of_mem _ hx))⟩
      have := h.2
      rw [List.length_append, List.length_singleton] at this
      exact this

theorem flds_pwText {m : Mem} {p : Nat} {ls : List Spec.PwLine} (h : m.Holds p (Spec.pwText ls))
    (hg : ∀ l ∈ ls, l.Good) : Flds m p (allFields ls) := by
  induction ls generalizing p with
  | nil => trivial
  | cons l ls ih =>
    have h' : m.Holds p (Spec.lineText l.fields ++ Spec.pwText ls) := by simpa [Spec.pwText] using h
    rw [holds_append, length_lineText] at h'
    rw [allFields_cons, flds_append]
    exact ⟨flds_lineText h'.1 (hg l (by simp)).1, ih h'.2 (fun x hx => hg x (by simp [hx]))⟩

theorem fields_eq (l : Spec.PwLine) :
    l.fields = l.name :: [l.passwd, l.uid, l.gid, l.gecos, l.dir, l.shell] := rfl

theorem width_fields (l : Spec.PwLine) :
    width l.fields = l.name.length + 1 + width [l.passwd, l.uid, l.gid, l.gecos, l.dir, l.shell] := by
  rw [fields_eq, width_cons]

/-- The name of a line and its other fields. -/
theorem pwLine_eq {fin : Nat} {m : Mem} {p lo : Nat} (top : Nat) {l : Spec.PwLine} (hg : l.Good)
    (h : Flds m p l.fields) (hf : p + width l.fields ≤ fin) (hlo : lo ≤ p) :
    ∃ m1 m' w, tokenS fin m p = .ok (m1, p + l.name.length + 1) ∧ Cut seps lo fin top m m1 ∧ m1.IsStr p l.name ∧
      Flds m1 (p + l.name.length + 1) [l.passwd, l.uid, l.gid, l.gecos, l.dir, l.shell] ∧
      pwFields fin m1 p (p + l.name.length + 1) = .ok (m', p + width l.fields, w) ∧
      Cut seps lo fin top m m' ∧ PwRep m' w l ∧ PwIn w l lo fin ∧ w.name = p := by
  rw [fields_eq, width_cons] at hf
  obtain ⟨m1, e1, c1, s1⟩ := tokenS_cut h.1 (by omega) hlo top (fin := fin)
  have h2 := h.2.cut c1 (flds_clean h.2) (by omega)
  obtain ⟨m2, w, e2, c2, r2, i2, n2⟩ :=
    pwFields_eq (fin := fin) (lo := lo) top hg s1 (by omega) hlo h2 (by omega)
  refine ⟨m1, m2, w, e1, c1, s1, h2, ?_, c1.trans c2 seps_zero, r2, i2, n2⟩
  have hw : width l.fields = l.name.length + 1 + width [l.passwd, l.uid, l.gid, l.gecos, l.dir, l.shell] := by
    rw [fields_eq, width_cons]
  rw [e2, hw]
  congr 2
  refine Prod.ext ?_ rfl
  dsimp only; omega

theorem isStr_first_ne {m : Mem} {p : Nat} {s : List Byte} (h : m.IsStr p s) (hs : s ≠ []) :
    ∃ b, m.load p = .ok b ∧ b ≠ 0#8 := by
  cases s with
  | nil => exact absurd rfl hs
  | cons b s =>
    rw [isStr_cons] at h
    exact ⟨b, load_some h.1, h.2.1⟩

theorem getpwentOpen_eq {m : Mem} {a k : Nat} {ls : List Spec.PwLine} {l : Spec.PwLine} {f : Userdb} (pw : Passwd)
    (hF : Flds m a (allFields ls)) (hG : ∀ l ∈ ls, l.Good) (ha : f.file = a) (hs : f.size = width (allFields ls))
    (hp : f.p = a + width (allFields (ls.take k))) (hk : ls[k]? = some l) :
    ∃ m' w, getpwentOpen m f pw =
        .ok ({ m := m', f := { f with p := a + width (allFields (ls.take (k + 1))) }, pw := w }, true) ∧
      Cut seps a (a + width (allFields ls)) (a + width (allFields ls)) m m' ∧ PwRep m' w l ∧
      PwIn w l a (a + width (allFields ls)) := by
  obtain ⟨hkl, hkl'⟩ := List.getElem?_eq_some_iff.1 hk
  have hsplit : ls = ls.take k ++ l :: ls.drop (k + 1) := by
    rw [← hkl', ← List.drop_eq_getElem_cons hkl, List.take_append_drop]
  have hl : l ∈ ls := by rw [← hkl']; exact List.getElem_mem hkl
  have hw : width (allFields ls) = width (allFields (ls.take k)) + (width l.fields + width (allFields (ls.drop (k + 1)))) := by
    refine (congrArg (fun x => width (allFields x)) hsplit).trans ?_
    rw [allFields_append, allFields_cons, width_append, width_append]
  have hw1 : width (allFields (ls.take (k + 1))) = width (allFields (ls.take k)) + width l.fields := by
    rw [List.take_add_one, hk, allFields_append, width_append]
    simp [allFields]
  rw [hsplit, allFields_append, flds_append, allFields_cons, flds_append] at hF
  have hpos : 0 < width l.fields := by rw [fields_eq, width_cons]; omega
  obtain ⟨m1, m2, w, e1, c1, s1, _, e2, c2, r2, i2, n2⟩ :=
    pwLine_eq (fin := a + width (allFields ls)) (lo := a) (a + width (allFields ls)) (hG l hl) hF.2.1 (by omega) (by omega)
  obtain ⟨b, hb, hb0⟩ := isStr_first_ne s1 (hG l hl).2.1
  refine ⟨m2, w, ?_, c2, r2, i2⟩
  unfold getpwentOpen
  rw [ha, hs, hp, if_neg (by omega), e1, Res.ok_bind]; dsimp only
  rw [hb, Res.ok_bind, if_neg hb0, e2, Res.ok_bind, hw1, ← Nat.add_assoc]; rfl

theorem getpwentOpen_end {m : Mem} {f : Userdb} (pw : Passwd) (h : f.file + f.size ≤ f.p) :
    getpwentOpen m f pw = .ok ({ m := m, f := f, pw := pw }, false) := by
  unfold getpwentOpen
  rw [if_pos h]; rfl

/-- The outcome of a search. -/
def PwFound (m : Mem) (pw w : Passwd) (b : Bool) (lo fin : Nat) : Option Spec.PwLine → Prop
  | none => b = false ∧ w = pw
  | some l => b = true ∧ PwRep m w l ∧ PwIn w l lo fin

theorem getpwnamLoop_eq {fin : Nat} {ls : List Spec.PwLine} {m : Mem} {p lo nm : Nat} {name : List Byte} (pw : Passwd)
    (hne : ls ≠ []) (hF : Flds m p (allFields ls)) (hG : ∀ l ∈ ls, l.Good) (hf : p + width (allFields ls) = fin)
    (hlo : lo ≤ p) (hn : m.IsStr nm name) (hnf : Spec.Field name) (hnl : name.length < 2147483647) :
    ∃ m' w b, getpwnamLoop fin nm pw m p = .ok (m', w, b) ∧ Cut seps lo fin fin m m' ∧
      PwFound m' pw w b lo fin (ls.find? (fun e => decide (e.name = name))) := by
  induction ls generalizing m p with
  | nil => exact absurd rfl hne
  | cons l ls ih =>
    have hg := hG l (by simp)
    rw [allFields_cons, width_append] at hf
    rw [allFields_cons, flds_append] at hF
    obtain ⟨m1, m2, w, e1, c1, s1, h1, e2, c2, r2, i2, n2⟩ := pwLine_eq (fin := fin) (lo := lo) fin hg hF.1 (by omega) hlo
    obtain ⟨r, hr, _, hr0, _⟩ := C06_strcmp (c1.isStr hn (field_seps hnf) seps_zero (by omega)) s1 hnl
    by_cases heq : l.name = name
    · refine ⟨m2, w, true, ?_, c2, ?_⟩
      · rw [getpwnamLoop, e1, Res.ok_bind]; dsimp only
        rw [hr, Res.ok_bind, if_pos (hr0.2 heq.symm), e2, Res.ok_bind]; rfl
      · rw [List.find?_cons_of_pos (by simpa using heq)]
        exact ⟨rfl, r2, i2⟩
    · rw [fields_eq, width_cons] at hf
      obtain ⟨m3, e3, c3⟩ := skipTokens_eq (fin := fin) (lo := lo) fin h1 (by omega) (by omega)
      have c13 := c1.trans c3 seps_zero
      have hskip : skipTokens fin 6 m1 (p + l.name.length + 1) = .ok (m3, p + width l.fields) := by
        have := e3
        simp only [List.length_cons, List.length_nil] at this
        rw [this, width_fields]
        congr 2; omega
      have hstep : getpwnamLoop fin nm pw m p =
          if p + width l.fields < fin then getpwnamLoop fin nm pw m3 (p + width l.fields)
          else .ok (m3, pw, false) := by
        rw [getpwnamLoop, e1, Res.ok_bind]; dsimp only
        rw [hr, Res.ok_bind, if_neg (fun h => heq (hr0.1 h).symm), hskip, Res.ok_bind]; rfl
      rw [hstep, List.find?_cons_of_neg (by simpa using heq)]
      rw [fields_eq, width_cons] at hF ⊢
      by_cases hls : ls = []
      · subst hls
        refine ⟨m3, pw, false, ?_, c13, rfl, rfl⟩
        rw [if_neg]
        simp only [allFields, List.flatMap_nil, width_nil] at hf
        omega
      · have hpos : 0 < width (allFields ls) := by
          cases ls with
          | nil => exact absurd rfl hls
          | cons x xs => rw [allFields_cons, width_append, fields_eq, width_cons]; omega
        rw [if_pos (by omega)]
        obtain ⟨m4, w4, b4, e4, c4, f4⟩ := ih hls (hF.2.cut c13 (flds_clean hF.2) (by omega))
          (fun x hx => hG x (by simp [hx])) (by omega) (by omega) (c13.isStr hn (field_seps hnf) seps_zero (by omega))
        exact ⟨m4, w4, b4, e4, c13.trans c4 seps_zero, f4⟩

theorem getpwuidLoop_eq {fin : Nat} {ls : List Spec.PwLine} {m : Mem} {p lo uid : Nat} (pw : Passwd)
    (hne : ls ≠ []) (hF : Flds m p (allFields ls)) (hG : ∀ l ∈ ls, l.Good) (hf : p + width (allFields ls) = fin)
    (hlo : lo ≤ p) :
    ∃ m' w b, getpwuidLoop fin uid pw m p = .ok (m', w, b) ∧ Cut seps lo fin fin m m' ∧
      PwFound m' pw w b lo fin (ls.find? (fun e => decide (Spec.decValue e.uid = uid))) := by
  induction ls generalizing m p with
  | nil => exact absurd rfl hne
  | cons l ls ih =>
    have hg := hG l (by simp)
    rw [allFields_cons, width_append] at hf
    rw [allFields_cons, flds_append] at hF
    have hwl : width l.fields = l.name.length + 1 + (l.passwd.length + 1 + (l.uid.length + 1 + (l.gid.length + 1 + width [l.gecos, l.dir, l.shell]))) := by
      rw [fields_eq]; simp only [width_cons]
    have hnn := field_seps (hg.1 l.name (by simp [Spec.PwLine.fields]))
    have hpp := field_seps (hg.1 l.passwd (by simp [Spec.PwLine.fields]))
    have h0 := hF.1
    obtain ⟨m1, e1, c1, s1⟩ := tokenS_cut h0.1 (by omega) hlo fin (fin := fin)
    have h1 := h0.2.cut c1 (flds_clean h0.2) (by simp only [width_cons] at hwl ⊢; omega)
    obtain ⟨m2, e2, c2, s2⟩ := tokenS_cut h1.1 (by omega) (lo := lo) (by omega) fin (fin := fin)
    have h2 := h1.2.cut c2 (flds_clean h1.2) (by simp only [width_cons] at hwl ⊢; omega)
    have eu := tokenI_fld h2.1 (fin := fin) (by omega) hg.2.2.1
    have c12 := c1.trans c2 seps_zero
    have hid := toId_nat hg.2.2.1.2
    by_cases heq : Spec.decValue l.uid = uid
    · have eg := tokenI_fld h2.2.1 (fin := fin) (by omega) hg.2.2.2
      obtain ⟨m3, m4, m5, e3, e4, e5, c5, s3, s4, s5⟩ :=
        pwTail_eq (fin := fin) (lo := lo) fin h2.2.2 (by omega) (by omega)
      have c25 := c2.trans c5 seps_zero
      have sn : m5.IsStr p l.name := c25.isStr s1 hnn seps_zero (by omega)
      have sp : m5.IsStr (p + l.name.length + 1) l.passwd := c5.isStr s2 hpp seps_zero (by omega)
      refine ⟨m5, { name := p, passwd := p + l.name.length + 1, uid := toId (Spec.decValue l.uid : Nat), gid := toId (Spec.decValue l.gid : Nat),
                    gecos := p + l.name.length + 1 + l.passwd.length + 1 + l.uid.length + 1 + l.gid.length + 1, dir := p + l.name.length + 1 + l.passwd.length + 1 + l.uid.length + 1 + l.gid.length + 1 + l.gecos.length + 1,
                    shell := p + l.name.length + 1 + l.passwd.length + 1 + l.uid.length + 1 + l.gid.length + 1 + l.gecos.length + 1 + l.dir.length + 1 }, true, ?_, c12.trans c5 seps_zero, ?_⟩
      · rw [getpwuidLoop, e1, Res.ok_bind]; dsimp only
        rw [e2, Res.ok_bind]; dsimp only
        rw [eu, Res.ok_bind]; dsimp only
        rw [if_pos (by rw [hid]; exact heq)]
        unfold pwuidFields
        rw [eg, Res.ok_bind]; dsimp only
        rw [e3, Res.ok_bind]; dsimp only
        rw [e4, Res.ok_bind]; dsimp only
        rw [e5, Res.ok_bind]; rfl
      · rw [List.find?_cons_of_pos (by simpa using heq)]
        refine ⟨rfl, ⟨sn, sp, hid, toId_nat hg.2.2.2.2, s3, s4, s5⟩, ?_⟩
        simp only [width_cons] at hwl
        refine ⟨?_, ?_, ?_, ?_, ?_, ?_⟩ <;> dsimp only <;> omega
    · obtain ⟨m3, e3, c3⟩ := skipTokens_eq (fin := fin) (lo := lo) fin h2.2 (by simp only [width_cons] at hwl ⊢; omega) (by omega)
      have c13 := c12.trans c3 seps_zero
      have hskip : skipTokens fin 4 m2 (p + l.name.length + 1 + l.passwd.length + 1 + l.uid.length + 1) =
          .ok (m3, p + width l.fields) := by
        have := e3
        simp only [List.length_cons, List.length_nil] at this
        rw [this]
        simp only [width_cons] at hwl ⊢
        congr 2; omega
      have hstep : getpwuidLoop fin uid pw m p =
          if p + width l.fields < fin then getpwuidLoop fin uid pw m3 (p + width l.fields)
          else .ok (m3, pw, false) := by
        rw [getpwuidLoop, e1, Res.ok_bind]; dsimp only
        rw [e2, Res.ok_bind]; dsimp only
        rw [eu, Res.ok_bind]; dsimp only
        rw [if_neg (by rw [hid]; exact heq), hskip, Res.ok_bind]; rfl
      rw [hstep, List.find?_cons_of_neg (by simpa using heq)]
      by_cases hls : ls = []
      · subst hls
        refine ⟨m3, pw, false, ?_, c13, rfl, rfl⟩
        rw [if_neg]
        simp only [allFields, List.flatMap_nil, width_nil] at hf
        omega
      · have hpos : 0 < width (allFields ls) := by
          cases ls with
          | nil => exact absurd rfl hls
          | cons x xs => rw [allFields_cons, width_append, fields_eq, width_cons]; omega
        rw [if_pos (by omega)]
        obtain ⟨m4, w4, b4, e4, c4, f4⟩ := ih hls (hF.2.cut c13 (flds_clean hF.2) (by omega))
          (fun x hx => hG x (by simp [hx])) (by omega) (by omega)
        exact ⟨m4, w4, b4, e4, c13.trans c4 seps_zero, f4⟩

end Minilib

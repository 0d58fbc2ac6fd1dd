import Verif.Lemmas.Userdb
import Mathlib.Data.List.Forall2
/-
C55: the user database.
-/

set_option autoImplicit false

namespace Minilib
open Mem

/-- One call, with the kernel's answer to an opening; the answer is NULL or what `struct passwd` holds. -/
def pwStep (kern : Mapping) (s : PwState) : Spec.PwOp → Res (PwState × Option Passwd)
  | .rewind => .ok (setpwent s, none)
  | .next => do
    let r ← getpwent kern s
    pure (r.1, if r.2 = true then some r.1.pw else none)
  | .nam p _ => do
    let r ← getpwnam kern s p
    pure (r.1, if r.2 = true then some r.1.pw else none)
  | .uid n => do
    let r ← getpwuid kern s n
    pure (r.1, if r.2 = true then some r.1.pw else none)

/-- A list of calls and their answers. -/
def pwRun (kern : Mapping) (s : PwState) : List Spec.PwOp → Res (PwState × List (Option Passwd))
  | [] => .ok (s, [])
  | op :: ops => do
    let r ← pwStep kern s op
    let q ← pwRun kern r.1 ops
    pure (q.1, r.2 :: q.2)

/-- NULL stands for no line; a struct for the line whose fields it points to. -/
def PwAns (m : Mem) : Option Passwd → Option Spec.PwLine → Prop
  | none, none => True
  | some w, some l => PwRep m w l
  | _, _ => False

/-- The answers so far, with the strings inside the file. -/
def PwAnsIn (m : Mem) (lo hi : Nat) : Option Passwd → Option Spec.PwLine → Prop
  | none, none => True
  | some w, some l => PwRep m w l ∧ PwIn w l lo hi ∧ l.Good
  | _, _ => False

theorem PwAnsIn.ans {m : Mem} {lo hi : Nat} {w : Option Passwd} {l : Option Spec.PwLine} (h : PwAnsIn m lo hi w l) :
    PwAns m w l := by
  cases w <;> cases l <;> simp_all [PwAns, PwAnsIn]

theorem PwAnsIn.cut {m m' : Mem} {lo hi : Nat} {w : Option Passwd} {l : Option Spec.PwLine} (h : PwAnsIn m lo hi w l)
    (hc : Cut seps lo hi hi m m') : PwAnsIn m' lo hi w l := by
  cases w with
  | none => cases l <;> simp_all [PwAnsIn]
  | some w =>
    cases l with
    | none => simp_all [PwAnsIn]
    | some l => exact ⟨h.1.cut h.2.2 h.2.1 hc, h.2⟩

/-- The state of the globals that belongs to what a reader remembers. -/
def PwInv (ls : List Spec.PwLine) (m0 : Mem) (a : Nat) (s : PwState) (k : Spec.PwMind) : Prop :=
  (∀ e, k.last = some e → e ∈ ls) ∧
  if k.opened = true then
    s.f.file = a ∧ s.f.size = width (allFields ls) ∧ Flds s.m a (allFields ls) ∧
      Cut seps a (a + width (allFields ls)) (a + width (allFields ls)) m0 s.m ∧ k.pos ≤ ls.length ∧
      s.f.p = a + width (allFields (ls.take k.pos)) ∧
      (match k.last with
        | none => s.pw.name = 0
        | some e => PwRep s.m s.pw e ∧ PwIn s.pw e a (a + width (allFields ls)))
  else s.f.file = 0 ∧ s.pw.name = 0 ∧ k.last = none

theorem pw_scan_inv {ls : List Spec.PwLine} {m0 m m' : Mem} {a : Nat} {k : Spec.PwMind} {f : Userdb} {pw w : Passwd} {b : Bool}
    {P : Spec.PwLine → Bool} (hG : ∀ l ∈ ls, l.Good)
    (hk : PwInv ls m0 a { m := m, f := f, pw := pw } k) (ho : k.opened = true)
    (hc : Cut seps a (a + width (allFields ls)) (a + width (allFields ls)) m m')
    (hF : PwFound m' pw w b a (a + width (allFields ls)) (ls.find? P)) :
    PwInv ls m0 a { m := m', f := f, pw := w } { opened := true, pos := k.pos, last := (ls.find? P).or k.last } ∧
      PwAnsIn m' a (a + width (allFields ls)) (if b = true then some w else none) (ls.find? P) := by
  obtain ⟨hl, hk⟩ := hk
  rw [if_pos ho] at hk
  obtain ⟨h1, h2, h3, h4, h5, h6, h7⟩ := hk
  cases hfd : ls.find? P with
  | none =>
    rw [hfd] at hF
    obtain ⟨rfl, rfl⟩ := hF
    refine ⟨⟨by simpa using hl, ?_⟩, by simp [PwAnsIn]⟩
    rw [if_pos rfl]
    refine ⟨h1, h2, h3.cut hc (flds_clean h3) (by omega), h4.trans hc seps_zero, h5, h6, ?_⟩
    simp only [Option.none_or]
    cases hkl : k.last with
    | none => rw [hkl] at h7; exact h7
    | some e =>
      rw [hkl] at h7
      exact ⟨h7.1.cut (hG e (hl e hkl)) h7.2 hc, h7.2⟩
  | some l =>
    rw [hfd] at hF
    obtain ⟨rfl, r, i⟩ := hF
    have hmem := List.mem_of_find?_eq_some hfd
    refine ⟨⟨by simp only [Option.some_or, Option.some.injEq]; rintro e rfl; exact hmem, ?_⟩, ?_⟩
    · rw [if_pos rfl]
      exact ⟨h1, h2, h3.cut hc (flds_clean h3) (by omega), h4.trans hc seps_zero, h5, h6, r, i⟩
    · exact ⟨r, i, hG l hmem⟩

/-- `userdb` right after opening. -/
abbrev freshDb (a n : Nat) : Userdb := { file := a, p := a, p2 := a + n, size := n }

/-- The state right after opening. -/
theorem pw_open_inv {ls : List Spec.PwLine} {m0 : Mem} {a : Nat} {s : PwState} {k : Spec.PwMind} (hG : ∀ l ∈ ls, l.Good)
    (hT : m0.Holds a (Spec.pwText ls)) (hk : PwInv ls m0 a s k) (ho : k.opened = false) :
    userdbOpen (some (m0, a, (Spec.pwText ls).length)) s.m s.f =
        some (m0, freshDb a (Spec.pwText ls).length) ∧
      PwInv ls m0 a ⟨m0, freshDb a (Spec.pwText ls).length, s.pw⟩ { opened := true, pos := 0, last := k.last } := by
  obtain ⟨hl, hk⟩ := hk
  rw [ho] at hk
  simp only [Bool.false_eq_true, if_false] at hk
  obtain ⟨h1, h2, h3⟩ := hk
  constructor
  · unfold userdbOpen
    rw [if_neg (by simp [h1])]
  · refine ⟨by simpa using hl, ?_⟩
    rw [if_pos rfl]
    refine ⟨rfl, length_pwText ls, flds_pwText hT hG, Cut.refl _ _ _ _ _, Nat.zero_le _, by simp [allFields], ?_⟩
    rw [h3]
    exact h2

/-- The text of the name is where the call says. -/
def NamOk (m : Mem) : Spec.PwOp → Prop
  | .nam p name => m.IsStr p name ∧ Spec.Field name ∧ name.length < 2147483647
  | _ => True

theorem getpwnamScan_eq {ls : List Spec.PwLine} {m : Mem} {a nm : Nat} {name : List Byte} {f : Userdb} (pw : Passwd)
    (hne : ls ≠ []) (hF : Flds m a (allFields ls)) (hG : ∀ l ∈ ls, l.Good) (hfa : f.file = a)
    (hfs : f.size = width (allFields ls)) (hn : m.IsStr nm name) (hnf : Spec.Field name) (hnl : name.length < 2147483647) :
    ∃ m' w b, getpwnamScan m f pw nm = .ok ({ m := m', f := f, pw := w }, b) ∧
      Cut seps a (a + width (allFields ls)) (a + width (allFields ls)) m m' ∧
      PwFound m' pw w b a (a + width (allFields ls)) (ls.find? (fun e => decide (e.name = name))) := by
  obtain ⟨m', w, b, e, c, r⟩ := getpwnamLoop_eq (lo := a) pw hne hF hG rfl (Nat.le_refl _) hn hnf hnl
  refine ⟨m', w, b, ?_, c, r⟩
  unfold getpwnamScan
  rw [hfa, hfs, e]; rfl

theorem getpwuidScan_eq {ls : List Spec.PwLine} {m : Mem} {a uid : Nat} {f : Userdb} (pw : Passwd)
    (hne : ls ≠ []) (hF : Flds m a (allFields ls)) (hG : ∀ l ∈ ls, l.Good) (hfa : f.file = a)
    (hfs : f.size = width (allFields ls)) :
    ∃ m' w b, getpwuidScan m f pw uid = .ok ({ m := m', f := f, pw := w }, b) ∧
      Cut seps a (a + width (allFields ls)) (a + width (allFields ls)) m m' ∧
      PwFound m' pw w b a (a + width (allFields ls)) (ls.find? (fun e => decide (Spec.decValue e.uid = uid))) := by
  obtain ⟨m', w, b, e, c, r⟩ := getpwuidLoop_eq (lo := a) (uid := uid) pw hne hF hG rfl (Nat.le_refl _)
  refine ⟨m', w, b, ?_, c, r⟩
  unfold getpwuidScan
  rw [hfa, hfs, e]; rfl

theorem getpwentOpen_inv {ls : List Spec.PwLine} {m0 : Mem} {a : Nat} {m : Mem} {f : Userdb} {pw : Passwd} {k : Spec.PwMind}
    (hG : ∀ l ∈ ls, l.Good) (hk : PwInv ls m0 a { m := m, f := f, pw := pw } k) (ho : k.opened = true) :
    ∃ s' b, getpwentOpen m f pw = .ok (s', b) ∧
      PwInv ls m0 a s' { opened := true, pos := if ls[k.pos]?.isSome then k.pos + 1 else k.pos, last := ls[k.pos]?.or k.last } ∧
      PwAnsIn s'.m a (a + width (allFields ls)) (if b = true then some s'.pw else none) ls[k.pos]? ∧
      Cut seps a (a + width (allFields ls)) (a + width (allFields ls)) m s'.m := by
  have hk' := hk
  obtain ⟨hl, hk⟩ := hk
  rw [if_pos ho] at hk
  obtain ⟨h1, h2, h3, h4, h5, h6, h7⟩ := hk
  cases hg : ls[k.pos]? with
  | none =>
    have hlen := List.getElem?_eq_none_iff.1 hg
    refine ⟨_, _, getpwentOpen_end pw ?_, ⟨by simpa using hl, ?_⟩, trivial, Cut.refl _ _ _ _ _⟩
    · rw [h1, h2, h6, List.take_of_length_le hlen]; exact Nat.le_refl _
    · rw [if_pos rfl]
      exact ⟨h1, h2, h3, h4, h5, h6, h7⟩
  | some l =>
    have hlt := (List.getElem?_eq_some_iff.1 hg).1
    have hmem := List.mem_of_getElem? hg
    obtain ⟨m', w, e, c, r, i⟩ := getpwentOpen_eq pw h3 hG h1 h2 h6 hg
    refine ⟨_, true, e, ⟨?_, ?_⟩, ⟨r, i, hG l hmem⟩, c⟩
    · simp only [Option.some_or, Option.some.injEq]; rintro e rfl; exact hmem
    · rw [if_pos rfl]
      exact ⟨h1, h2, h3.cut c (flds_clean h3) (by omega), h4.trans c seps_zero, hlt, rfl, r, i⟩

theorem pwStep_inv {ls : List Spec.PwLine} {m0 : Mem} {a : Nat} {s : PwState} {k : Spec.PwMind} {op : Spec.PwOp}
    (hne : ls ≠ []) (hG : ∀ l ∈ ls, l.Good) (ha : a ≠ 0) (hlen : (Spec.pwText ls).length < 2147483648)
    (hT : m0.Holds a (Spec.pwText ls)) (hk : PwInv ls m0 a s k) (hn : NamOk m0 op)
    (hsafe : Spec.pwSafeOp k op) :
    ∃ s' w, pwStep (some (m0, a, (Spec.pwText ls).length)) s op = .ok (s', w) ∧ PwInv ls m0 a s' (Spec.pwNext ls k op) ∧
      PwAnsIn s'.m a (a + width (allFields ls)) w (Spec.pwAnswer ls k op) ∧
      ((k.opened = false ∧ s'.m = s.m) ∨ (k.opened = false ∧ Cut seps a (a + width (allFields ls)) (a + width (allFields ls)) m0 s'.m) ∨
        Cut seps a (a + width (allFields ls)) (a + width (allFields ls)) s.m s'.m) := by
  obtain ⟨opened, pos, last⟩ := k
  have hlw := length_pwText ls
  cases op with
  | rewind =>
    refine ⟨_, _, rfl, ?_, trivial, Or.inr (Or.inr (Cut.refl _ _ _ _ _))⟩
    obtain ⟨hl, hk⟩ := hk
    refine ⟨hl, ?_⟩
    cases opened with
    | false => exact hk
    | true =>
      rw [if_pos rfl] at hk
      obtain ⟨h1, h2, h3, h4, h5, h6, h7⟩ := hk
      refine (if_pos (show (Spec.pwNext ls ⟨true, pos, last⟩ .rewind).opened = true from rfl)).mpr ?_
      exact ⟨h1, h2, h3, h4, Nat.zero_le _, by simp [setpwent, Spec.pwNext, allFields, h1], h7⟩
  | next =>
    cases opened with
    | false =>
      obtain ⟨eo, io⟩ := pw_open_inv hG hT hk rfl
      obtain ⟨s', b, e1, i1, n1, c1⟩ := getpwentOpen_inv hG io rfl
      refine ⟨s', _, ?_, i1, n1, Or.inr (Or.inl ⟨rfl, c1⟩)⟩
      simp only [pwStep, getpwent, eo]
      rw [e1]; rfl
    | true =>
      have hk' := hk
      obtain ⟨hl, hk⟩ := hk
      rw [if_pos rfl] at hk
      obtain ⟨s', b, e1, i1, n1, c1⟩ := getpwentOpen_inv hG hk' rfl
      refine ⟨s', _, ?_, i1, n1, Or.inr (Or.inr c1)⟩
      have : userdbOpen (some (m0, a, (Spec.pwText ls).length)) s.m s.f = some (s.m, s.f) := by
        unfold userdbOpen
        rw [if_pos (by rw [hk.1]; exact ha)]
      simp only [pwStep, getpwent, this]
      rw [e1]; rfl
  | nam nm name =>
    obtain ⟨hn1, hn2, hn3⟩ := hn
    cases opened with
    | false =>
      obtain ⟨eo, io⟩ := pw_open_inv hG hT hk rfl
      have hfile : s.f.file = 0 := by
        have := hk.2
        simp only [Bool.false_eq_true, if_false] at this
        exact this.1
      have hlast : last = none := by
        have := hk.2
        simp only [Bool.false_eq_true, if_false] at this
        exact this.2.2
      obtain ⟨m', w, b, e1, c1, r1⟩ := getpwnamScan_eq (f := freshDb a (Spec.pwText ls).length) s.pw hne (flds_pwText hT hG) hG rfl hlw hn1 hn2 hn3
      obtain ⟨i1, n1⟩ := pw_scan_inv hG io rfl c1 r1
      refine ⟨⟨m', freshDb a (Spec.pwText ls).length, w⟩, if b = true then some w else none, ?_, ?_, ?_, Or.inr (Or.inl ⟨rfl, c1⟩)⟩
      · simp only [pwStep, getpwnam, hfile, if_true, eo]
        rw [e1]; rfl
      · subst hlast; exact i1
      · subst hlast; exact n1
    | true =>
      have hk' := hk
      obtain ⟨hl, hk⟩ := hk
      rw [if_pos rfl] at hk
      obtain ⟨h1, h2, h3, h4, h5, h6, h7⟩ := hk
      obtain ⟨e, he⟩ := Option.isSome_iff_exists.1 (hsafe rfl)
      dsimp only at he
      subst he
      have heg := hG e (hl e rfl)
      have hnow := h4.isStr hn1 (field_seps hn2) seps_zero (Or.inr (Or.inr (Nat.le_refl _)))
      have hlt : e.name.length < 2147483647 := by
        have h81 := h7.2.1
        have h82 := h7.2.2.1
        omega
      obtain ⟨r, hr, _, hr0, _⟩ := C06_strcmp h7.1.1 hnow hlt
      by_cases heq : e.name = name
      · refine ⟨s, some s.pw, ?_, ?_, ?_, Or.inr (Or.inr (Cut.refl _ _ _ _ _))⟩
        · simp only [pwStep, getpwnam]
          rw [if_neg (by rw [h1]; exact ha), hr, Res.ok_bind, if_pos (hr0.2 heq)]; rfl
        · refine ⟨?_, ?_⟩
          · simp only [Spec.pwNext, Spec.pwAnswer, Spec.cached, heq, decide_true, if_true, Option.some_or]
            exact hl
          · simp only [Spec.pwNext, Spec.pwAnswer, Spec.cached, heq, decide_true, if_true, Option.some_or]
            exact ⟨h1, h2, h3, h4, h5, h6, h7⟩
        · simp only [Spec.pwAnswer, Spec.cached, heq, decide_true, if_true]
          exact ⟨h7.1, h7.2, heg⟩
      · obtain ⟨m', w, b, e1, c1, r1⟩ := getpwnamScan_eq s.pw hne h3 hG h1 h2 hnow hn2 hn3
        obtain ⟨i1, n1⟩ := pw_scan_inv hG hk' rfl c1 r1
        refine ⟨⟨m', s.f, w⟩, if b = true then some w else none, ?_, ?_, ?_, Or.inr (Or.inr c1)⟩
        · simp only [pwStep, getpwnam]
          rw [if_neg (by rw [h1]; exact ha), hr, Res.ok_bind, if_neg (fun h => heq (hr0.1 h)), e1]; rfl
        · simp only [Spec.pwNext, Spec.pwAnswer, Spec.cached, heq, decide_false, Bool.false_eq_true, if_false, if_true]
          exact i1
        · simp only [Spec.pwAnswer, Spec.cached, heq, decide_false, Bool.false_eq_true, if_false]
          exact n1
  | uid n =>
    cases opened with
    | false =>
      obtain ⟨eo, io⟩ := pw_open_inv hG hT hk rfl
      have hkk := hk.2
      simp only [Bool.false_eq_true, if_false] at hkk
      obtain ⟨hfile, -, hlast⟩ := hkk
      obtain ⟨m', w, b, e1, c1, r1⟩ := getpwuidScan_eq (uid := n) (f := freshDb a (Spec.pwText ls).length) s.pw hne (flds_pwText hT hG) hG rfl hlw
      obtain ⟨i1, n1⟩ := pw_scan_inv hG io rfl c1 r1
      refine ⟨⟨m', freshDb a (Spec.pwText ls).length, w⟩, if b = true then some w else none, ?_, ?_, ?_, Or.inr (Or.inl ⟨rfl, c1⟩)⟩
      · simp only [pwStep, getpwuid, hfile, if_true, eo]
        rw [e1]; rfl
      · subst hlast; exact i1
      · subst hlast; exact n1
    | true =>
      have hk' := hk
      obtain ⟨hl, hk⟩ := hk
      rw [if_pos rfl] at hk
      obtain ⟨h1, h2, h3, h4, h5, h6, h7⟩ := hk
      have hscan : (¬ (s.pw.name ≠ 0 ∧ n = s.pw.uid)) → ∃ s' w,
          pwStep (some (m0, a, (Spec.pwText ls).length)) s (.uid n) = .ok (s', w) ∧
          PwInv ls m0 a s' { opened := true, pos := pos, last := (ls.find? (fun e => decide (Spec.decValue e.uid = n))).or last } ∧
          PwAnsIn s'.m a (a + width (allFields ls)) w (ls.find? (fun e => decide (Spec.decValue e.uid = n))) ∧
          Cut seps a (a + width (allFields ls)) (a + width (allFields ls)) s.m s'.m := by
        intro hno
        obtain ⟨m', w, b, e1, c1, r1⟩ := getpwuidScan_eq (uid := n) s.pw hne h3 hG h1 h2
        obtain ⟨i1, n1⟩ := pw_scan_inv hG hk' rfl c1 r1
        refine ⟨_, if b = true then some w else none, ?_, i1, n1, c1⟩
        simp only [pwStep, getpwuid]
        rw [if_neg (by rw [h1]; exact ha), if_neg hno, e1]; rfl
      cases last with
      | none =>
        obtain ⟨s', w, e1, e2, e3, e4⟩ := hscan (by rintro ⟨x, -⟩; exact x h7)
        exact ⟨s', w, e1, e2, e3, Or.inr (Or.inr e4)⟩
      | some e =>
        have heg := hG e (hl e rfl)
        have hnz : s.pw.name ≠ 0 := by
          have := h7.2.1
          omega
        by_cases heq : Spec.decValue e.uid = n
        · refine ⟨s, some s.pw, ?_, ?_, ?_, Or.inr (Or.inr (Cut.refl _ _ _ _ _))⟩
          · simp only [pwStep, getpwuid]
            rw [if_neg (by rw [h1]; exact ha), if_pos ⟨hnz, by rw [h7.1.2.2.1, heq]⟩]; rfl
          · refine ⟨?_, ?_⟩
            · simp only [Spec.pwNext, Spec.pwAnswer, Spec.cached, heq, decide_true, if_true, Option.some_or]
              exact hl
            · simp only [Spec.pwNext, Spec.pwAnswer, Spec.cached, heq, decide_true, if_true, Option.some_or]
              exact ⟨h1, h2, h3, h4, h5, h6, h7⟩
          · simp only [Spec.pwAnswer, Spec.cached, heq, decide_true, if_true]
            exact ⟨h7.1, h7.2, heg⟩
        · obtain ⟨s', w, e1, e2, e3, e4⟩ := hscan (by rintro ⟨-, x⟩; exact heq (by rw [← h7.1.2.2.1]; exact x.symm))
          refine ⟨s', w, e1, ?_, ?_, Or.inr (Or.inr e4)⟩
          · simp only [Spec.pwNext, Spec.pwAnswer, Spec.cached, heq, decide_false, Bool.false_eq_true, if_false, if_true]
            exact e2
          · simp only [Spec.pwAnswer, Spec.cached, heq, decide_false, Bool.false_eq_true, if_false]
            exact e3

theorem pwRun_inv {ls : List Spec.PwLine} {m0 : Mem} {a : Nat} {s : PwState} {k : Spec.PwMind} {ops : List Spec.PwOp}
    (hne : ls ≠ []) (hG : ∀ l ∈ ls, l.Good) (ha : a ≠ 0) (hlen : (Spec.pwText ls).length < 2147483648)
    (hT : m0.Holds a (Spec.pwText ls)) (hk : PwInv ls m0 a s k) (hn : ∀ op ∈ ops, NamOk m0 op)
    (hsafe : Spec.pwSafe ls k ops) :
    ∃ s' ws, pwRun (some (m0, a, (Spec.pwText ls).length)) s ops = .ok (s', ws) ∧
      List.Forall₂ (PwAnsIn s'.m a (a + width (allFields ls))) ws (Spec.pwAnswers ls k ops) ∧
      (k.opened = true → Cut seps a (a + width (allFields ls)) (a + width (allFields ls)) s.m s'.m) ∧
      (s'.m = s.m ∨ Cut seps a (a + width (allFields ls)) (a + width (allFields ls)) m0 s'.m) := by
  induction ops generalizing s k with
  | nil => exact ⟨s, [], rfl, .nil, fun _ => Cut.refl _ _ _ _ _, Or.inl rfl⟩
  | cons op ops ih =>
    obtain ⟨s1, w1, e1, i1, n1, c1⟩ := pwStep_inv hne hG ha hlen hT hk (hn op (by simp)) hsafe.1
    obtain ⟨s2, ws, e2, n2, c2, d2⟩ := ih i1 (fun x hx => hn x (by simp [hx])) hsafe.2
    have hop : (Spec.pwNext ls k op).opened = true ∨ (op = .rewind ∧ k.opened = false) := by
      cases op with
      | rewind => cases h : k.opened <;> simp [Spec.pwNext, h]
      | _ => left; rfl
    refine ⟨s2, w1 :: ws, ?_, .cons ?_ n2, ?_, ?_⟩
    · rw [pwRun, e1, Res.ok_bind, e2]; rfl
    · rcases hop with hop | ⟨rfl, hop⟩
      · exact n1.cut (c2 hop)
      · cases w1 with
        | none => trivial
        | some w => exact n1.elim
    · intro ho
      have hop' : (Spec.pwNext ls k op).opened = true := by
        rcases hop with hop | ⟨_, hop⟩
        · exact hop
        · rw [ho] at hop; cases hop
      rcases c1 with ⟨h, _⟩ | ⟨h, _⟩ | h
      · rw [ho] at h; cases h
      · rw [ho] at h; cases h
      · exact h.trans (c2 hop') seps_zero
    · rcases hop with hop | ⟨rfl, hop⟩
      · have h2 := c2 hop
        right
        have hk1 := i1.2
        rw [if_pos hop] at hk1
        exact hk1.2.2.2.1.trans h2 seps_zero
      · rcases d2 with d2 | d2
        · rw [pwStep] at e1
          cases e1
          exact Or.inl d2
        · exact Or.inr d2

/-- C55: every history of setpwent, getpwent, getpwnam and getpwuid over a well-formed file (the kernel maps it at `a` when it is
opened) is free of undefined behaviour, and each call answers what a reader of the file answers: getpwent the lines one after
another with exactly their fields, the lookups the last entry again if it is the one, else the first line with the key, NULL if
there is none.  All answers stay valid: the structs are compared with the memory at the end of the history, and memory changes
only in that colons and newlines of the file become NUL.
Missing: getpwnam in an open file while no entry was found yet (`C55_nam_refuted`), endpwent (`C55_stale_refuted`), numbers above
INT_MAX (`C55_number_refuted`), other files. -/
theorem C55_passwd_partial {ls : List Spec.PwLine} {m0 : Mem} {a : Nat} {s : PwState} {ops : List Spec.PwOp}
    (hne : ls ≠ []) (hG : ∀ l ∈ ls, l.Good) (ha : a ≠ 0) (hlen : (Spec.pwText ls).length < 2147483648)
    (hT : m0.Holds a (Spec.pwText ls)) (hs : s.f.file = 0) (hw : s.pw.name = 0) (hn : ∀ op ∈ ops, NamOk m0 op)
    (hsafe : Spec.pwSafe ls { opened := false, pos := 0, last := none } ops) :
    ∃ s' ws, pwRun (some (m0, a, (Spec.pwText ls).length)) s ops = .ok (s', ws) ∧
      List.Forall₂ (PwAns s'.m) ws (Spec.pwAnswers ls { opened := false, pos := 0, last := none } ops) ∧
      (s'.m = s.m ∨ ∀ x, s'.m x = m0 x ∨
        (a ≤ x ∧ x < a + (Spec.pwText ls).length ∧ (m0 x = some 58#8 ∨ m0 x = some 10#8) ∧ s'.m x = some 0#8)) := by
  obtain ⟨s', ws, e, n, -, d⟩ := pwRun_inv (s := s) (k := { opened := false, pos := 0, last := none }) hne hG ha hlen hT
    ⟨by simp, by simp [hs, hw]⟩ hn hsafe
  refine ⟨s', ws, e, n.imp (fun _ _ h => h.ans), ?_⟩
  rcases d with d | d
  · exact Or.inl d
  · right
    intro x
    rw [length_pwText]
    rcases d x with h | ⟨h1, h2, ⟨b, h3, h4⟩, h5⟩ | ⟨h1, h2, _⟩
    · exact Or.inl h
    · right
      refine ⟨h1, h2, ?_, h5⟩
      simp only [seps, List.mem_cons, List.not_mem_nil, or_false] at h3
      rcases h3 with rfl | rfl
      · exact Or.inl h4
      · exact Or.inr h4
    · omega

theorem cached_eq_find {ls : List Spec.PwLine} {last : Option Spec.PwLine} {P : Spec.PwLine → Bool}
    (hl : ∀ e, last = some e → e ∈ ls) (hu : ∀ e ∈ ls, ∀ e' ∈ ls, P e = true → P e' = true → e = e') :
    Spec.cached ls last P = ls.find? P := by
  cases last with
  | none => rfl
  | some e =>
    simp only [Spec.cached]
    split
    · rename_i h
      cases hf : ls.find? P with
      | none => exact absurd h (by simpa using List.find?_eq_none.1 hf e (hl e rfl))
      | some e' => rw [hu e (hl e rfl) e' (List.mem_of_find?_eq_some hf) h (List.find?_some hf)]
    · rfl

theorem pwAnswer_plain {ls : List Spec.PwLine} {k : Spec.PwMind} (op : Spec.PwOp) (hd : Spec.PwDistinct ls)
    (hl : ∀ e, k.last = some e → e ∈ ls) : Spec.pwAnswer ls k op = Spec.plainAnswer ls k.opened k.pos op := by
  cases op with
  | rewind => rfl
  | next => rfl
  | nam p name =>
    refine cached_eq_find hl (fun e he e' he' h h' => (hd e he e' he').1 ?_)
    rw [of_decide_eq_true h, of_decide_eq_true h']
  | uid n =>
    refine cached_eq_find hl (fun e he e' he' h h' => (hd e he e' he').2 ?_)
    rw [of_decide_eq_true h, of_decide_eq_true h']

theorem pwAnswer_mem {ls : List Spec.PwLine} {k : Spec.PwMind} {op : Spec.PwOp} {e : Spec.PwLine} (hd : Spec.PwDistinct ls)
    (hl : ∀ e, k.last = some e → e ∈ ls) (h : Spec.pwAnswer ls k op = some e) : e ∈ ls := by
  rw [pwAnswer_plain op hd hl] at h
  cases op with
  | rewind => cases h
  | next => exact List.mem_of_getElem? h
  | nam p name => exact List.mem_of_find?_eq_some h
  | uid n => exact List.mem_of_find?_eq_some h

/-- C55: when names and numbers are pairwise different, the remembered entry makes no difference: every lookup answers the first
line with the key. -/
theorem C55_plain {ls : List Spec.PwLine} {k : Spec.PwMind} {ops : List Spec.PwOp} (hd : Spec.PwDistinct ls)
    (hl : ∀ e, k.last = some e → e ∈ ls) :
    Spec.pwAnswers ls k ops = Spec.plainAnswers ls k.opened k.pos ops := by
  induction ops generalizing k with
  | nil => rfl
  | cons op ops ih =>
    have ha := pwAnswer_plain op hd hl
    have hnext : ∀ e, (Spec.pwNext ls k op).last = some e → e ∈ ls := by
      intro e he
      cases hans : Spec.pwAnswer ls k op with
      | none =>
        cases op with
        | rewind => exact hl e he
        | _ =>
          simp only [Spec.pwNext, hans, Option.none_or] at he
          exact hl e he
      | some e' =>
        cases op with
        | rewind => exact hl e he
        | _ =>
          simp only [Spec.pwNext, hans, Option.some_or, Option.some.injEq] at he
          subst he
          exact pwAnswer_mem hd hl hans
    rw [Spec.pwAnswers, Spec.plainAnswers, ih hnext, ha]
    cases op with
    | next =>
      have e : Spec.pwAnswer ls k .next = ls[if k.opened then k.pos else 0]? := rfl
      simp only [Spec.pwNext, e]; rfl
    | _ => rfl

/-! ### a concrete file -/

/-- `r:x:0:0::/:s` -/
def exRoot : Spec.PwLine := ⟨[114#8], [120#8], [48#8], [48#8], [], [47#8], [115#8]⟩
/-- `u:x:12:5:::` -/
def exUser : Spec.PwLine := ⟨[117#8], [120#8], [49#8, 50#8], [53#8], [], [], []⟩

/-- The file is mapped at 4096; the names `u`, `r` and `q` are at 100, 110 and 120. -/
def exPwMem : Mem :=
  objects [(4096, Spec.pwText [exRoot, exUser]), (100, [117#8, 0#8]), (110, [114#8, 0#8]), (120, [113#8, 0#8])]

def exPwState : PwState := ⟨exPwMem, ⟨0, 0, 0, 0⟩, ⟨0, 0, 0, 0, 0, 0, 0⟩⟩

def exPwOps : List Spec.PwOp :=
  [.rewind, .uid 99, .next, .nam 100 [117#8], .uid 12, .nam 120 [113#8], .next, .next, .rewind, .next]

example : Spec.pwAnswers [exRoot, exUser] { opened := false, pos := 0, last := none } exPwOps =
    [none, none, some exRoot, some exUser, some exUser, none, some exUser, none, none, some exRoot] := by decide

example : ∃ s' ws, pwRun (some (exPwMem, 4096, (Spec.pwText [exRoot, exUser]).length)) exPwState exPwOps = .ok (s', ws) ∧
    List.Forall₂ (PwAns s'.m) ws
      [none, none, some exRoot, some exUser, some exUser, none, some exUser, none, none, some exRoot] := by
  obtain ⟨s', ws, h1, h2, -⟩ := C55_passwd_partial (ls := [exRoot, exUser]) (m0 := exPwMem) (a := 4096) (s := exPwState)
    (ops := exPwOps) (by simp) (by decide) (by decide) (by decide) (by decide +kernel) rfl rfl
    (by
      intro op hop
      simp only [exPwOps, List.mem_cons, List.not_mem_nil, or_false] at hop
      rcases hop with rfl | rfl | rfl | rfl | rfl | rfl | rfl | rfl | rfl | rfl
      all_goals first | trivial | exact ⟨⟨by decide, by decide⟩, by decide, by decide⟩)
    (by simp [Spec.pwSafe, Spec.pwSafeOp, exPwOps, Spec.pwNext, Spec.pwAnswer, Spec.cached, exRoot, exUser, Spec.decValue])
  exact ⟨s', ws, h1, h2⟩

example : Spec.PwDistinct [exRoot, exUser] := by
  intro e he e' he'
  simp only [List.mem_cons, List.not_mem_nil, or_false] at he he'
  rcases he with rfl | rfl <;> rcases he' with rfl | rfl <;> decide

/-! ### where the property fails -/

/-- Every history over a well-formed file is free of undefined behaviour. -/
def C55_nam_full : Prop :=
  ∀ (ls : List Spec.PwLine) (m0 : Mem) (a : Nat) (s : PwState) (ops : List Spec.PwOp), ls ≠ [] → (∀ l ∈ ls, l.Good) → a ≠ 0 →
    (Spec.pwText ls).length < 2147483648 → m0.Holds a (Spec.pwText ls) → s.f.file = 0 → s.pw.name = 0 →
    (∀ op ∈ ops, NamOk m0 op) → ∃ r, pwRun (some (m0, a, (Spec.pwText ls).length)) s ops = .ok r

theorem strcmp_null {m : Mem} {q : Nat} (h : m 0 = none) : strcmp m 0 q = .ub := by
  rw [strcmp, strcmpCore, load_none h]; rfl

/-- C55: the second of two lookups of a name that is not in the file dereferences NULL: after the first the file is open, and
`pw_name` is compared although no entry was found. -/
theorem C55_nam_refuted : ¬ C55_nam_full := by
  intro h
  obtain ⟨r, hr⟩ := h [exRoot, exUser] exPwMem 4096 exPwState [.nam 120 [113#8], .nam 120 [113#8]] (by simp) (by decide)
    (by decide) (by decide) (by decide +kernel) rfl rfl (by
      intro op hop
      simp only [List.mem_cons, List.not_mem_nil, or_false] at hop
      rcases hop with rfl | rfl <;> exact ⟨⟨by decide, by decide⟩, by decide, by decide⟩)
  obtain ⟨m', w, b, e1, c1, r1⟩ := getpwnamScan_eq (ls := [exRoot, exUser]) (m := exPwMem) (a := 4096) (nm := 120) (name := [113#8])
    (f := freshDb 4096 (Spec.pwText [exRoot, exUser]).length) exPwState.pw (by simp)
    (flds_pwText (by decide +kernel) (by decide)) (by decide) rfl (by decide) ⟨by decide, by decide⟩ (by decide) (by decide)
  have hfd : ([exRoot, exUser].find? (fun e => decide (e.name = [113#8]))) = none := by decide
  rw [hfd] at r1
  obtain ⟨rfl, rfl⟩ := r1
  have h0 : m' 0 = none := by
    rcases c1 0 with h | ⟨h, _⟩ | ⟨h, _⟩
    · rw [h]; decide
    · omega
    · omega
  have hstep : pwStep (some (exPwMem, 4096, (Spec.pwText [exRoot, exUser]).length)) exPwState (.nam 120 [113#8]) =
      .ok (⟨m', freshDb 4096 (Spec.pwText [exRoot, exUser]).length, exPwState.pw⟩, none) := by
    simp only [pwStep, getpwnam, userdbOpen]
    rw [if_pos (show exPwState.f.file = 0 from rfl), if_neg (by simp [exPwState])]
    dsimp only
    rw [e1]; rfl
  rw [pwRun, hstep, Res.ok_bind, pwRun, pwStep] at hr
  unfold getpwnam at hr
  rw [if_neg (by simp), show exPwState.pw.name = 0 from rfl, strcmp_null h0] at hr
  cases hr

theorem tokenILoop_prefix {fin : Nat} {m : Mem} {p : Nat} {f : List Byte} {i : Nat} (h : m.Holds p f)
    (hd : ∀ c ∈ f, Spec.IsDigit c) (hf : p + f.length ≤ fin) (hv : decFrom i f ≤ 2147483647) :
    tokenILoop fin m p i = tokenILoop fin m (p + f.length) (decFrom i f : Nat) := by
  induction f generalizing p i with
  | nil => rfl
  | cons c f ih =>
    have h' := holds_cons.1 h
    have hc := hd c (by simp)
    simp only [List.length_cons] at hf ⊢
    have hv' : decFrom (10 * i + (c.toNat - 48)) f ≤ 2147483647 := hv
    rw [tokenILoop, if_pos (by omega), load_some h'.1, Res.ok_bind, if_pos (toInt_digit_iff.2 hc),
      tokenIStep_eq hc (Nat.le_trans (decFrom_le _ f) hv'), Res.ok_bind,
      ih h'.2 (fun x hx => hd x (by simp [hx])) (by omega) hv']
    rw [show p + 1 + f.length = p + (f.length + 1) by omega]; rfl

/-- `token_i` reads every number that a `uid_t` can hold. -/
def C55_number_full : Prop :=
  ∀ (fin : Nat) (m : Mem) (p : Nat) (f : List Byte), m.Holds p (f ++ [58#8]) → (∀ b ∈ f, Spec.IsDigit b) →
    Spec.decValue f < 4294967296 → p + f.length < fin →
    ∃ r, tokenI fin m p = .ok r ∧ toId r.1 = Spec.decValue f ∧ r.2 = p + f.length + 1

/-- C55: a number above INT_MAX overflows (the text is 4294967294, the user `nobody` of some systems). -/
theorem C55_number_refuted : ¬ C55_number_full := by
  intro h
  let f : List Byte := [52#8, 50#8, 57#8, 52#8, 57#8, 54#8, 55#8, 50#8, 57#8, 52#8]
  let m : Mem := object 1 (f ++ [58#8])
  obtain ⟨r, hr, -⟩ := h 20 m 1 f (holds_object _ _) (by decide) (by decide) (by decide)
  have hp := tokenILoop_prefix (fin := 20) (m := m) (p := 1) (f := f.take 9) (i := 0) (by decide) (by decide) (by decide) (by decide)
  have hv : decFrom 0 (f.take 9) = 429496729 := by decide
  rw [tokenI, show (0 : Int) = ((0 : Nat) : Int) from rfl, hp, hv, tokenILoop, if_pos (by decide),
    load_some (show m (1 + (f.take 9).length) = some 52#8 by decide), Res.ok_bind, if_pos (by decide)] at hr
  have hu : tokenIStep ((429496729 : Nat) : Int) 52#8 = .ub := by decide
  rw [hu] at hr
  cases hr

/-- C55 (outside of the lines of the format): at an empty line, and at one without a name, getpwent answers that there are no more users, though
there are: the next call goes on behind it. -/
theorem C55_emptyuser_refuted {kern : Mapping} {s : PwState} {b : Byte} (hf : s.f.file ≠ 0) (hp : s.f.p < s.f.file + s.f.size)
    (hb : s.m s.f.p = some b) (h : b = 10#8 ∨ b = 58#8) :
    getpwent kern s = .ok ({ s with m := s.m.upd s.f.p 0#8, f := { s.f with p := s.f.p + 1 } }, false) := by
  have f1 : Fld s.m s.f.p [] := ⟨by intro i hi; simp at hi, by intro x hx; simp at hx, b, hb, Or.inl (by rcases h with rfl | rfl <;> decide)⟩
  simp only [getpwent, userdbOpen, if_pos hf]
  unfold getpwentOpen
  rw [if_neg (by omega), tokenS_fld f1 hp, Res.ok_bind]
  simp only [List.length_nil, Nat.add_zero]
  rw [load_some (upd_same _ _ _), Res.ok_bind, if_pos rfl]
  rfl

/-- C55: an empty line, and a user behind it. -/
example : ∃ s', getpwent none ⟨object 4096 [10, 117, 58, 120, 58, 49, 58, 49, 58, 58, 47, 58, 47, 10], ⟨4096, 4096, 4110, 14⟩, exPwState.pw⟩ = .ok (s', false) ∧
    s'.f.p = 4097 ∧ s'.m 4097 = some 117#8 :=
  ⟨_, C55_emptyuser_refuted (b := 10#8) (by decide) (by decide) (by decide +kernel) (Or.inl rfl), rfl, by decide +kernel⟩

/-- An entry that was found before endpwent makes no difference afterwards. -/
def C55_stale_full : Prop :=
  ∀ (ls : List Spec.PwLine) (m0 m1 : Mem) (a b : Nat) (s s1 : PwState) (n p : Nat) (name : List Byte), ls ≠ [] →
    (∀ l ∈ ls, l.Good) → a ≠ 0 → b ≠ 0 → (Spec.pwText ls).length < 2147483648 → m0.Holds a (Spec.pwText ls) →
    m1.Holds b (Spec.pwText ls) → s.f.file = 0 → s.pw.name = 0 → m1.IsStr p name → Spec.Field name → name.length < 2147483647 →
    getpwent (some (m0, a, (Spec.pwText ls).length)) s = .ok (s1, true) →
    ∃ r, (do
      let s2 ← getpwuid (some (m1, b, (Spec.pwText ls).length)) (endpwent s1) n
      getpwnam (some (m1, b, (Spec.pwText ls).length)) s2.1 p) = .ok r

/-- C55: after getpwent, endpwent and a lookup of a number that is not in the file, getpwnam reads the name of the old entry, in
memory that is no longer mapped. -/
theorem C55_stale_refuted : ¬ C55_stale_full := by
  intro h
  let T := Spec.pwText [exRoot, exUser]
  let m1 : Mem := objects [(8192, T), (120, [113#8, 0#8])]
  obtain ⟨m', w, e1, c1, r1, i1⟩ := getpwentOpen_eq (ls := [exRoot, exUser]) (m := exPwMem) (a := 4096) (k := 0) (l := exRoot)
    (f := freshDb 4096 T.length) exPwState.pw (flds_pwText (by decide +kernel) (by decide)) (by decide) rfl (by decide)
    (by decide) rfl
  have hop : getpwent (some (exPwMem, 4096, T.length)) exPwState =
      .ok (⟨m', ⟨4096, 4096 + width (allFields [exRoot]), 4096 + T.length, T.length⟩, w⟩, true) := by
    simp only [getpwent, userdbOpen]
    rw [if_neg (by simp [exPwState])]
    dsimp only
    rw [e1]
    rfl
  obtain ⟨r, hr⟩ := h [exRoot, exUser] exPwMem m1 4096 8192 exPwState _ 99 120 [113#8] (by simp) (by decide) (by decide) (by decide)
    (by decide) (by decide +kernel) (by decide +kernel) rfl rfl ⟨by decide, by decide⟩ (by decide) (by decide) hop
  obtain ⟨m2, w2, b2, e2, c2, r2⟩ := getpwuidScan_eq (ls := [exRoot, exUser]) (m := m1) (a := 8192) (uid := 99)
    (f := freshDb 8192 T.length) w (by simp)
    (flds_pwText (by decide +kernel) (by decide)) (by decide) rfl (by decide)
  have hfd : ([exRoot, exUser].find? (fun e => decide (Spec.decValue e.uid = 99))) = none := by decide
  rw [hfd] at r2
  obtain ⟨rfl, rfl⟩ := r2
  have hw : width (allFields [exRoot, exUser]) = 25 := by decide
  have hlo : 4096 ≤ w2.name ∧ w2.name < 4096 + 25 := by
    have h1 := i1.1
    have h2 := i1.2.1
    rw [hw] at h2
    omega
  have h0 : m2 w2.name = none := by
    rcases c2 w2.name with h | ⟨h, _⟩ | ⟨h, _⟩
    · rw [h]
      simp only [m1, objects, List.findSome?_cons, List.findSome?_nil]
      rw [if_neg (by omega), if_pos (by omega)]
      simp only [List.length_cons, List.length_nil]
      rw [List.getElem?_eq_none (by simp; omega)]
    · omega
    · omega
  have hstep : getpwuid (some (m1, 8192, T.length))
      (endpwent ⟨m', ⟨4096, 4096 + width (allFields [exRoot]), 4096 + T.length, T.length⟩, w2⟩) 99 =
      .ok (⟨m2, freshDb 8192 T.length, w2⟩, false) := by
    simp only [getpwuid, endpwent, userdbOpen, if_true, ne_eq, not_true_eq_false, if_false]
    exact e2
  rw [hstep, Res.ok_bind] at hr
  unfold getpwnam at hr
  rw [if_neg (by simp)] at hr
  dsimp only at hr
  rw [strcmp, strcmpCore, load_none h0] at hr
  cases hr

end Minilib

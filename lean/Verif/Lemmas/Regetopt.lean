import Verif.Model.Regetopt
import Verif.Spec.Regetopt
import Verif.Lemmas.Getopt
/-
Lemmas about contrib/regetopt/regetopt.c.
-/

set_option autoImplicit false

namespace Minilib
open Mem

/-! ### the option string -/

theorem reFind_text {m : Mem} {p i : Nat} {opts : Spec.Opts} {c : Byte} (h : m.IsStr (p + i) (Spec.optText opts))
    (hok : Spec.OptsOk opts) (hc : c ≠ 58#8) :
    reFind m p c.toInt (Spec.optText opts).length i = .ok (Spec.optKind opts c) := by
  induction opts generalizing i with
  | nil => rfl
  | cons o opts ih =>
    obtain ⟨x, b⟩ := o
    have hx := hok (x, b) (by simp)
    have hok' : Spec.OptsOk opts := fun o ho => hok o (by simp [ho])
    rw [optKind_cons]
    dsimp only
    cases b with
    | false =>
      have e : Spec.optText ((x, false) :: opts) = x :: Spec.optText opts := rfl
      rw [e] at h ⊢
      obtain ⟨h1, h2, h3⟩ := isStr_cons.1 h
      rw [List.length_cons, reFind, load_some h1, Res.ok_bind]
      by_cases he : x = c
      · rw [if_pos (by rw [he]), if_pos he]
        by_cases h0 : 0 < (Spec.optText opts).length
        · rw [if_pos h0]
          obtain ⟨k, hk, hk'⟩ := optText_head h3 hok'
          rw [← Nat.add_assoc, load_some hk, Res.ok_bind]
          simp [hk']
        · rw [if_neg h0]; rfl
      · rw [if_neg (fun h => he (BitVec.toInt_inj.1 h)), if_neg he]
        exact ih (by rw [← Nat.add_assoc]; exact h3) hok'
    | true =>
      have e : Spec.optText ((x, true) :: opts) = x :: 58#8 :: Spec.optText opts := rfl
      rw [e] at h ⊢
      obtain ⟨h1, h2, h3⟩ := isStr_cons.1 h
      obtain ⟨h4, h5, h6⟩ := isStr_cons.1 h3
      rw [List.length_cons, List.length_cons, reFind, load_some h1, Res.ok_bind]
      by_cases he : x = c
      · rw [if_pos (by rw [he]), if_pos he, if_pos (by omega), ← Nat.add_assoc, load_some h4, Res.ok_bind]
        rfl
      · rw [if_neg (fun h => he (BitVec.toInt_inj.1 h)), if_neg he, reFind, ← Nat.add_assoc, load_some h4, Res.ok_bind,
          if_neg (fun h => hc (BitVec.toInt_inj.1 h.symm))]
        exact ih (by rw [Nat.add_assoc, Nat.add_assoc] at h6; exact h6) hok'

theorem reFind_opts {m : Mem} {p : Nat} {quiet : Bool} {opts : Spec.Opts} {c : Byte} (h : m.IsStr p (optString quiet opts))
    (hok : Spec.OptsOk opts) (hc : c ≠ 58#8) :
    reFind m p c.toInt (optString quiet opts).length 0 = .ok (Spec.optKind opts c) := by
  cases quiet with
  | false => exact reFind_text (i := 0) h hok hc
  | true =>
    have e : optString true opts = 58#8 :: Spec.optText opts := rfl
    rw [e] at h ⊢
    obtain ⟨h1, h2, h3⟩ := isStr_cons.1 h
    rw [List.length_cons, reFind, Nat.add_zero, load_some h1, Res.ok_bind, if_neg (fun h => hc (BitVec.toInt_inj.1 h.symm))]
    exact reFind_text h3 hok hc

/-! ### the table -/

/-- `no_argument`, `required_argument`, `optional_argument`. -/
def kindCode : Spec.LKind → Int
  | .no => 0
  | .required => 1
  | .optional => 2

/-- The entry of the table. -/
def LongIs (m : Mem) (o : ReOption) (l : Spec.LOpt) : Prop :=
  o.name ≠ 0 ∧ m.IsStr o.name l.name ∧ l.name.length < 2147483647 ∧ o.hasArg = kindCode l.kind

/-- The table: the entries, and one without name. -/
def LongsAre (m : Mem) (longs : List ReOption) (specs : List Spec.LOpt) : Prop :=
  ∃ os e more, longs = os ++ e :: more ∧ e.name = 0 ∧ List.Forall₂ (LongIs m) os specs

theorem strncmp_take {m : Mem} {p q n : Nat} {a b : List Byte} (ha : m.IsStr p a) (hb : m.IsStr q b) :
    ∃ r, strncmp m p q n = .ok r ∧ (r = 0 ↔ a.take n = b.take n) := by
  cases n with
  | zero => exact ⟨0, rfl, by simp⟩
  | succ n =>
    obtain ⟨r, h1, -, h2, -⟩ := C06_strncmp (IsStr_strN ha (n + 1)) (IsStr_strN hb (n + 1))
    exact ⟨r, h1, h2⟩

/-- What the search in the table finds; `f` is the extension found so far. -/
def pickFrom (w : List Byte) : List (List Byte) → Nat → Int → Option Int
  | [], _, f => some f
  | x :: xs, i, f =>
    if x = w then some i
    else if Spec.Extends w x then (if 0 ≤ f then none else pickFrom w xs (i + 1) i)
    else pickFrom w xs (i + 1) f

theorem reMatch_eq {m : Mem} {cur : Nat} {w v : List Byte} {specs : List Spec.LOpt} {longs : List ReOption} {i : Nat} {f : Int}
    (hw : m.IsStr (cur + 2) (w ++ v)) (hl : LongsAre m longs specs) :
    reMatch m cur w.length longs i f = .ok (pickFrom w (specs.map (·.name)) i f) := by
  obtain ⟨os, e, more, rfl, he, hf⟩ := hl
  induction hf generalizing i f with
  | nil => simp [reMatch, he, pickFrom]
  | @cons o l os specs ho _ ih =>
    obtain ⟨h1, h2, h3, -⟩ := ho
    simp only [List.cons_append, List.map_cons, reMatch, pickFrom]
    rw [if_neg h1, C01_strlen h2 h1 (by omega), Res.ok_bind]
    by_cases hxw : l.name = w
    · rw [if_pos hxw, if_pos (by rw [hxw])]
      obtain ⟨r, e1, e2⟩ := strncmp_take (n := l.name.length) hw h2
      rw [e1, Res.ok_bind, if_pos (e2.2 (by rw [hxw]; simp))]; rfl
    · rw [if_neg hxw]
      have key : ∃ r, (if (l.name.length : Int) = w.length then strncmp m (cur + 2) o.name l.name.length else pure 1) = .ok r ∧ r ≠ 0 := by
        by_cases hlen : (l.name.length : Int) = w.length
        · rw [if_pos hlen]
          obtain ⟨r, e1, e2⟩ := strncmp_take (n := l.name.length) hw h2
          refine ⟨r, e1, fun h => hxw ?_⟩
          have := e2.1 h
          rw [List.take_append_of_le_length (by omega), List.take_of_length_le (by omega), List.take_of_length_le (by omega)] at this
          exact this.symm
        · rw [if_neg hlen]; exact ⟨1, rfl, by decide⟩
      obtain ⟨r, e1, hr⟩ := key
      rw [e1, Res.ok_bind, if_neg hr]
      have key2 : ∃ r, (if (w.length : Int) < l.name.length then strncmp m (cur + 2) o.name w.length else pure 1) = .ok r ∧
          (r = 0 ↔ Spec.Extends w l.name) := by
        by_cases hlen : (w.length : Int) < l.name.length
        · rw [if_pos hlen]
          obtain ⟨r, e1, e2⟩ := strncmp_take (n := w.length) hw h2
          refine ⟨r, e1, e2.trans ?_⟩
          rw [List.take_append_of_le_length (by omega), List.take_of_length_le (Nat.le_refl _)]
          unfold Spec.Extends
          rw [List.prefix_iff_eq_take]
          exact ⟨fun h => ⟨h, Ne.symm hxw⟩, fun h => h.1⟩
        · rw [if_neg hlen]
          refine ⟨1, rfl, by simp, fun h => ?_⟩
          exact absurd (h.1.eq_of_length_le (by omega)) h.2
      obtain ⟨r2, e3, hr2⟩ := key2
      rw [e3, Res.ok_bind]
      by_cases hx : Spec.Extends w l.name
      · rw [if_pos (hr2.2 hx), if_pos hx]
        by_cases hf0 : 0 ≤ f
        · rw [if_pos hf0, if_pos hf0]; rfl
        · rw [if_neg hf0, if_neg hf0]; exact ih
      · rw [if_neg (fun h => hx (hr2.1 h)), if_neg hx]; exact ih

/-- The outcome of the search, in the words of the specification. -/
def PickIs : Spec.Pick → Option Int → Prop
  | .found i, r => r = some (i : Int)
  | .unknown, r => ∃ f, r = some f ∧ f < 0
  | .ambiguous, r => r = none

theorem pickFrom_some {w : List Byte} {xs : List (List Byte)} {i : Nat} {f : Int} (hf : 0 ≤ f) :
    pickFrom w xs i f = match xs.findIdx? (fun x => decide (x = w)) with
      | some j => if Spec.exts w i (xs.take j) = [] then some ((i + j : Nat) : Int) else none
      | none => if Spec.exts w i xs = [] then some f else none := by
  induction xs generalizing i with
  | nil => rfl
  | cons x xs ih =>
    simp only [pickFrom, List.findIdx?_cons]
    by_cases hx : x = w
    · simp [hx, Spec.exts]
    · simp only [hx, if_false, decide_false]
      by_cases he : Spec.Extends w x
      · rw [if_pos he, if_pos hf]
        cases hj : xs.findIdx? (fun x => decide (x = w)) <;> simp [Spec.exts, he]
      · rw [if_neg he, ih]
        cases hj : xs.findIdx? (fun x => decide (x = w)) with
        | none => simp [Spec.exts, he]
        | some j => simp [Spec.exts, he, Nat.add_assoc, Nat.add_comm 1 j]

theorem pickFrom_none {w : List Byte} {xs : List (List Byte)} {i : Nat} :
    pickFrom w xs i (-1) = match xs.findIdx? (fun x => decide (x = w)) with
      | some j => if (Spec.exts w i (xs.take j)).length ≤ 1 then some ((i + j : Nat) : Int) else none
      | none => match Spec.exts w i xs with
        | [] => some (-1)
        | [k] => some (k : Int)
        | _ => none := by
  induction xs generalizing i with
  | nil => rfl
  | cons x xs ih =>
    simp only [pickFrom, List.findIdx?_cons]
    by_cases hx : x = w
    · simp [hx, Spec.exts]
    · simp only [hx, if_false, decide_false]
      by_cases he : Spec.Extends w x
      · rw [if_pos he, if_neg (by omega), pickFrom_some (by omega)]
        cases hj : xs.findIdx? (fun x => decide (x = w)) with
        | none =>
          simp only [Spec.exts, he, if_true, Option.map_none, if_neg (Bool.false_ne_true)]
          cases Spec.exts w (i + 1) xs <;> simp
        | some j =>
          simp [Spec.exts, he, Nat.add_assoc, Nat.add_comm 1 j]
      · rw [if_neg he, ih]
        cases hj : xs.findIdx? (fun x => decide (x = w)) with
        | none => simp [Spec.exts, he]
        | some j => simp [Spec.exts, he, Nat.add_assoc, Nat.add_comm 1 j]

theorem pick_eq {names : List (List Byte)} (hn : Spec.NoShadow names) (w : List Byte) : PickIs (Spec.pick names w) (pickFrom w names 0 (-1)) := by
  rw [pickFrom_none]
  unfold Spec.pick
  cases hj : names.findIdx? (fun x => decide (x = w)) with
  | some j =>
    have hw : names[j]? = some w := by
      obtain ⟨h1, h2, -⟩ := List.findIdx?_eq_some_iff_getElem.1 hj
      rw [List.getElem?_eq_getElem h1]
      simpa using h2
    simp only
    rw [if_pos (hn j w hw)]
    simp [PickIs]
  | none =>
    simp only
    generalize Spec.exts w 0 names = l
    match l with
    | [] => exact ⟨-1, rfl, by decide⟩
    | [k] => exact rfl
    | _ :: _ :: _ => exact rfl

/-! ### moving operands -/

theorem argvAt_append {pre : List Nat} {p : Nat} {xs : List Nat} : argvAt (pre ++ p :: xs) pre.length = .ok p := by
  unfold argvAt
  rw [List.getElem?_append_right (Nat.le_refl _)]; simp

theorem reShift_eq {xs ys : List Nat} : ∀ {pre : List Nat} {p : Nat},
    ∃ z, reShift xs.length (pre.length + 1) (pre ++ p :: (xs ++ ys)) = .ok (pre ++ xs ++ z :: ys) := by
  induction xs with
  | nil => intro pre p; exact ⟨p, by simp [reShift]⟩
  | cons x xs ih =>
    intro pre p
    have e1 : argvAt (pre ++ p :: (x :: xs ++ ys)) (pre.length + 1) = .ok x := by
      have := argvAt_append (pre := pre ++ [p]) (p := x) (xs := xs ++ ys)
      simpa using this
    have e2 : argvSet (pre ++ p :: (x :: xs ++ ys)) (pre.length + 1 - 1) x = .ok ((pre ++ [x]) ++ x :: (xs ++ ys)) := by
      unfold argvSet
      rw [if_pos (by simp)]
      simp
    obtain ⟨z, hz⟩ := ih (pre := pre ++ [x]) (p := x)
    refine ⟨z, ?_⟩
    rw [List.length_cons, reShift, e1, Res.ok_bind, e2, Res.ok_bind]
    have e3 : (pre ++ [x]).length + 1 = pre.length + 1 + 1 := by simp
    rw [← e3, hz]
    simp

theorem reReorder_eq {s : Regetopt} {p : Nat} {xs ys : List Nat} {argc : Nat} (h : s.argv.drop s.optind = p :: (xs ++ ys))
    (hargc : argc = s.optind + 1 + xs.length) : reReorder argc s = .ok (s.argv.take s.optind ++ xs ++ p :: ys) := by
  have hlt : s.optind < s.argv.length := by
    have := congrArg List.length h
    simp at this; omega
  have ha : s.argv = s.argv.take s.optind ++ p :: (xs ++ ys) := by rw [← h, List.take_append_drop]
  have hl : (s.argv.take s.optind).length = s.optind := by simp; omega
  obtain ⟨z, hz⟩ := reShift_eq (xs := xs) (ys := ys) (pre := s.argv.take s.optind) (p := p)
  have e0 : argvAt s.argv s.optind = .ok p := by
    have := argvAt_append (pre := s.argv.take s.optind) (p := p) (xs := xs ++ ys)
    rw [← ha, hl] at this
    exact this
  unfold reReorder
  rw [e0, Res.ok_bind]
  have e1 : argc - (s.optind + 1) = xs.length := by omega
  rw [← ha, hl] at hz
  rw [e1, hz, Res.ok_bind]
  unfold argvSet
  have hl2 : (s.argv.take s.optind ++ xs).length = argc - 1 := by rw [List.length_append, hl]; omega
  rw [if_pos (by rw [List.length_append, hl2]; simp)]
  rw [← hl2]
  simp

/-! ### the state -/

/-- The pointers from `i` on are those of the words `rest`, of the moved operands `before`, and NULL. -/
def RWords (m : Mem) (argv : List Nat) (i : Nat) (rest before : List (List Byte)) : Prop :=
  ∃ pr pb, argv.drop i = pr ++ (pb ++ [0]) ∧ (∀ p ∈ pr ++ pb, p ≠ 0) ∧ List.Forall₂ (fun p w => m.IsStr p w) pr rest ∧
    List.Forall₂ (fun p w => m.IsStr p w) pb before ∧ ∀ w ∈ rest, w.length < 2147483647

/-- The variables when the characters `cur` of the current word and the words `rest` are left and the operands `before` were moved. -/
def ReRep (m : Mem) (s : Regetopt) (cur : List Byte) (rest before : List (List Byte)) : Prop :=
  s.optArgc = (s.argv.length : Int) - 1 - before.length ∧
  ((cur = [] ∧ s.pos = 1 ∧ RWords m s.argv s.optind rest before) ∨
    ∃ p d w, argvAt s.argv s.optind = .ok p ∧ p ≠ 0 ∧ m.IsStr p (45#8 :: d :: w) ∧ d ≠ 45#8 ∧ w.length < 2147483645 ∧ 1 ≤ s.pos ∧
      (45#8 :: d :: w).drop s.pos = cur ∧ s.pos ≤ w.length + 2 ∧ RWords m s.argv (s.optind + 1) rest before)

theorem rWords_length {m : Mem} {argv : List Nat} {i : Nat} {rest before : List (List Byte)} (h : RWords m argv i rest before) :
    i + rest.length + before.length + 1 = argv.length := by
  obtain ⟨pr, pb, h1, -, h3, h4, -⟩ := h
  have := congrArg List.length h1
  rw [List.length_drop, List.length_append, List.length_append, h3.length_eq, h4.length_eq] at this
  simp at this
  omega

theorem rWords_cons {m : Mem} {argv : List Nat} {i : Nat} {w : List Byte} {rest before : List (List Byte)}
    (h : RWords m argv i (w :: rest) before) :
    ∃ p, argvAt argv i = .ok p ∧ p ≠ 0 ∧ m.IsStr p w ∧ w.length < 2147483647 ∧ RWords m argv (i + 1) rest before := by
  obtain ⟨pr, pb, h1, h2, h3, h4, h5⟩ := h
  cases h3 with
  | @cons p _ pr _ hp hps =>
    refine ⟨p, ?_, h2 p (by simp), hp, h5 w (by simp), pr, pb, ?_, fun q hq => h2 q (by simp at hq ⊢; right; exact hq), hps, h4,
      fun w hw => h5 w (by simp [hw])⟩
    · have := congrArg List.head? h1
      rw [List.head?_drop] at this
      unfold argvAt
      rw [this]; rfl
    · rw [← List.drop_drop, h1]; rfl

theorem rWords_move {m : Mem} {s : Regetopt} {w : List Byte} {rest before : List (List Byte)} (h : RWords m s.argv s.optind (w :: rest) before) :
    ∃ a, reReorder (s.argv.length - 1) s = .ok a ∧ a.Perm s.argv ∧ RWords m a s.optind rest (before ++ [w]) := by
  have hlen := rWords_length h
  obtain ⟨pr, pb, h1, h2, h3, h4, h5⟩ := h
  cases h3 with
  | @cons p _ pr _ hp hps =>
    have e : s.argv.drop s.optind = p :: ((pr ++ pb) ++ [0]) := by rw [h1]; simp
    have hl : (s.argv.take s.optind).length = s.optind := by simp; simp at hlen; omega
    refine ⟨_, reReorder_eq e ?_, ?_, pr, pb ++ [p], ?_, ?_, hps, ?_, fun w hw => h5 w (by simp [hw])⟩
    · rw [List.length_append, hps.length_eq, h4.length_eq]; simp at hlen; omega
    · conv => rhs; rw [← List.take_append_drop s.optind s.argv, e]
      rw [List.append_assoc]
      refine List.Perm.append_left _ ?_
      exact List.perm_middle
    · rw [List.append_assoc, List.drop_append_of_le_length (by omega), List.drop_of_length_le (by omega)]
      simp
    · intro q hq
      refine h2 q ?_
      simp at hq ⊢
      rcases hq with h | h | h
      · exact Or.inr (Or.inl h)
      · exact Or.inr (Or.inr h)
      · exact Or.inl h
    · exact List.rel_append h4 (List.Forall₂.cons hp List.Forall₂.nil)

/-- What a call keeps. -/
def ReKeep (s s' : Regetopt) : Prop := s'.opterr = s.opterr ∧ s'.said = s.said ∧ s'.argv.Perm s.argv

theorem reKeep_refl (s : Regetopt) : ReKeep s s := ⟨rfl, rfl, List.Perm.refl _⟩

theorem ReKeep.trans {s t u : Regetopt} (h : ReKeep s t) (g : ReKeep t u) : ReKeep s u := ⟨g.1.trans h.1, g.2.1.trans h.2.1, g.2.2.trans h.2.2⟩

theorem strcmp_dd {m : Mem} {p dd : Nat} {w : List Byte} (h : m.IsStr p w) (hd : m.IsStr dd [45#8, 45#8]) :
    ∃ r, strcmp m p dd = .ok r ∧ (r = 0 ↔ w = [45#8, 45#8]) := strcmp_dashes h hd

theorem reIsOption_eq {m : Mem} {p : Nat} {w : List Byte} (h : m.IsStr p w) :
    reIsOption m p w.length = .ok (decide (Spec.wordKind w ≠ .operand ∧ Spec.wordKind w ≠ .dashes)) := by
  unfold reIsOption
  match w, h with
  | [], _ => rfl
  | [a], _ => rfl
  | [a, b], h =>
    obtain ⟨h1, -, h2⟩ := isStr_cons.1 h
    obtain ⟨h3, -, -⟩ := isStr_cons.1 h2
    rw [if_neg (by simp), if_pos (by simp), load_some h1, Res.ok_bind, load_some h3, Res.ok_bind]
    simp only [Spec.wordKind]
    by_cases ha : a = 45#8 <;> by_cases hb : b = 45#8 <;> simp [ha, hb]
  | a :: b :: c :: w, h =>
    obtain ⟨h1, -, h2⟩ := isStr_cons.1 h
    rw [if_pos (by simp), load_some h1, Res.ok_bind]
    simp only [Spec.wordKind]
    by_cases ha : a = 45#8 <;> by_cases hb : b = 45#8 <;> simp [ha, hb]

/-- A long option. -/
def wordIsLong : Spec.WordIs → Bool
  | .long _ => true
  | _ => false

theorem reIsLong_eq {m : Mem} {p : Nat} {w : List Byte} (h : m.IsStr p w) :
    reIsLong m p w.length = .ok (wordIsLong (Spec.wordKind w)) := by
  unfold reIsLong
  match w, h with
  | [], _ => rfl
  | [a], _ => rfl
  | [a, b], h =>
    rw [if_neg (by simp)]
    simp only [Spec.wordKind]
    by_cases ha : a = 45#8 <;> by_cases hb : b = 45#8 <;> simp [ha, hb, wordIsLong]
  | a :: b :: c :: w, h =>
    obtain ⟨h1, -, h2⟩ := isStr_cons.1 h
    obtain ⟨h3, -, -⟩ := isStr_cons.1 h2
    rw [if_pos (by simp), load_some h1, Res.ok_bind, load_some h3, Res.ok_bind]
    simp only [Spec.wordKind]
    by_cases ha : a = 45#8 <;> by_cases hb : b = 45#8 <;> simp [ha, hb, wordIsLong]

theorem loop_word {m : Mem} {dd optstring : Nat} {longs : List ReOption} {li : Bool} {argc : Nat} {s : Regetopt} {p : Nat} {w : List Byte}
    (hd : m.IsStr dd [45#8, 45#8]) (hi : (s.optind : Int) < s.optArgc) (hp : argvAt s.argv s.optind = .ok p) (hp0 : p ≠ 0) (hw : m.IsStr p w)
    (hl : w.length < 2147483648) :
    regetoptLoop m dd optstring longs li argc s = match Spec.wordKind w with
      | .dashes => .ok ({ s with optind := s.optind + 1 }, -1)
      | .operand => reReorder argc s >>= fun a => regetoptLoop m dd optstring longs li argc { s with argv := a, optArgc := s.optArgc - 1 }
      | .short _ => if w.length ≤ s.pos then regetoptLoop m dd optstring longs li argc { s with pos := 1, optind := s.optind + 1 }
          else reShort m optstring s.optArgc s
      | .long _ => reLong m longs li s.optArgc s := by
  obtain ⟨r, e1, e2⟩ := strcmp_dashes hw hd
  rw [regetoptLoop, if_neg (by omega), hp, Res.ok_bind, C01_strlen hw hp0 hl, Res.ok_bind, e1, Res.ok_bind]
  by_cases h1 : w = [45#8, 45#8]
  · rw [if_pos (e2.2 h1), h1]; rfl
  · rw [if_neg (fun h => h1 (e2.1 h)), reIsOption_eq hw, Res.ok_bind, reIsLong_eq hw]
    cases hk : Spec.wordKind w with
    | dashes =>
      exfalso
      apply h1
      match w, hk with
      | [], hk => cases hk
      | [_], hk => cases hk
      | a :: b :: l, hk =>
        simp only [Spec.wordKind] at hk
        by_cases ha : a = 45#8 <;> by_cases hb : b = 45#8 <;> by_cases hl : l = [] <;> simp_all
    | operand => simp
    | short cs => simp [wordIsLong]
    | long l => simp [wordIsLong]

theorem loop_end {m : Mem} {dd optstring : Nat} {longs : List ReOption} {li : Bool} {argc : Nat} {s : Regetopt}
    (hi : s.optArgc ≤ (s.optind : Int)) : regetoptLoop m dd optstring longs li argc s = .ok (s, -1) := by
  rw [regetoptLoop, if_pos hi]; rfl

theorem wordKind_short {d : Byte} {w : List Byte} (hd : d ≠ 45#8) : Spec.wordKind (45#8 :: d :: w) = .short (d :: w) := by
  simp [Spec.wordKind, hd]

theorem wordKind_short_inv {x cs : List Byte} (h : Spec.wordKind x = .short cs) : ∃ d w, x = 45#8 :: d :: w ∧ d ≠ 45#8 ∧ cs = d :: w := by
  match x, h with
  | [], h => cases h
  | [_], h => cases h
  | a :: b :: l, h =>
    simp only [Spec.wordKind] at h
    by_cases ha : a = 45#8 <;> by_cases hb : b = 45#8 <;> by_cases hl : l = [] <;> simp [ha, hb, hl] at h
    · exact ⟨b, l, by rw [ha], hb, by rw [hl]; exact h.symm⟩
    · exact ⟨b, l, by rw [ha], hb, h.symm⟩

theorem wordKind_long_inv {x l : List Byte} (h : Spec.wordKind x = .long l) : x = 45#8 :: 45#8 :: l := by
  match x, h with
  | [], h => cases h
  | [_], h => cases h
  | a :: b :: l', h =>
    simp only [Spec.wordKind] at h
    by_cases ha : a = 45#8 <;> by_cases hb : b = 45#8 <;> by_cases hl : l' = [] <;> simp [ha, hb, hl] at h
    rw [ha, hb, h]

/-- The end of an exhausted cluster is skipped. -/
theorem loop_open {m : Mem} {dd optstring : Nat} {longs : List ReOption} {li : Bool} {argc : Nat} {s : Regetopt} {rest before : List (List Byte)}
    (hd : m.IsStr dd [45#8, 45#8]) (h : ReRep m s [] rest before) :
    ∃ s', regetoptLoop m dd optstring longs li argc s = regetoptLoop m dd optstring longs li argc s' ∧ s'.pos = 1 ∧
      RWords m s'.argv s'.optind rest before ∧ s'.optArgc = (s'.argv.length : Int) - 1 - before.length ∧ ReKeep s s' ∧ s'.argv = s.argv := by
  obtain ⟨h0, ⟨-, h1, h2⟩ | ⟨p, d, w, h1, h2, h3, h4, h5, h6, h7, h8, h9⟩⟩ := h
  · exact ⟨s, rfl, h1, h2, h0, reKeep_refl s, rfl⟩
  · refine ⟨{ s with pos := 1, optind := s.optind + 1 }, ?_, rfl, h9, h0, reKeep_refl s, rfl⟩
    have hlen := rWords_length h9
    have hdrop : w.length + 2 ≤ s.pos := by
      have := List.drop_eq_nil_iff.1 h7
      simpa using this
    rw [loop_word hd (by omega) h1 h2 h3 (by simp; omega), wordKind_short h4]
    simp only [List.length_cons]
    rw [if_pos hdrop]

/-- An operand is moved to the end. -/
theorem loop_operand {m : Mem} {dd optstring : Nat} {longs : List ReOption} {li : Bool} {s : Regetopt} {w : List Byte}
    {rest before : List (List Byte)} (hd : m.IsStr dd [45#8, 45#8]) (h : ReRep m s [] (w :: rest) before) (hk : Spec.wordKind w = .operand) :
    ∃ s', regetoptLoop m dd optstring longs li (s.argv.length - 1) s = regetoptLoop m dd optstring longs li (s.argv.length - 1) s' ∧
      ReRep m s' [] rest (before ++ [w]) ∧ ReKeep s s' := by
  obtain ⟨s1, e1, h1, h2, h3, h4, h5⟩ := loop_open (optstring := optstring) (longs := longs) (li := li) (argc := s.argv.length - 1) hd h
  obtain ⟨p, a1, a2, a3, a4, a5⟩ := rWords_cons h2
  have hlen := rWords_length h2
  obtain ⟨a, b1, b2, b3⟩ := rWords_move h2
  refine ⟨{ s1 with argv := a, optArgc := s1.optArgc - 1 }, ?_, ⟨?_, Or.inl ⟨rfl, h1, b3⟩⟩, h4.1, h4.2.1, b2.trans h4.2.2⟩
  · rw [e1, loop_word hd (by simp at hlen; omega) a1 a2 a3 (by omega), hk]
    simp only
    rw [h5] at b1
    rw [b1, Res.ok_bind]
  · simp only
    rw [h3, b2.length_eq, List.length_append]
    simp
    omega

/-- A cluster is opened. -/
theorem loop_cluster {m : Mem} {dd optstring : Nat} {longs : List ReOption} {li : Bool} {argc : Nat} {s : Regetopt} {w cs : List Byte}
    {rest before : List (List Byte)} (hd : m.IsStr dd [45#8, 45#8]) (h : ReRep m s [] (w :: rest) before) (hk : Spec.wordKind w = .short cs) :
    ∃ s', regetoptLoop m dd optstring longs li argc s = regetoptLoop m dd optstring longs li argc s' ∧
      ReRep m s' cs rest before ∧ ReKeep s s' ∧ s'.argv = s.argv := by
  obtain ⟨s1, e1, h1, h2, h3, h4, h5⟩ := loop_open (optstring := optstring) (longs := longs) (li := li) (argc := argc) hd h
  obtain ⟨p, a1, a2, a3, a4, a5⟩ := rWords_cons h2
  obtain ⟨d, v, rfl, b2, rfl⟩ := wordKind_short_inv hk
  simp only [List.length_cons] at a4
  exact ⟨s1, e1, ⟨h3, Or.inr ⟨p, d, v, a1, a2, a3, b2, by omega, by omega, by rw [h1]; rfl, by omega, a5⟩⟩, h4, h5⟩

/-- In a cluster the short options are searched. -/
theorem loop_short {m : Mem} {dd optstring : Nat} {longs : List ReOption} {li : Bool} {argc : Nat} {s : Regetopt} {c : Byte} {cs : List Byte}
    {quiet : Bool} {opts : Spec.Opts} {rest before : List (List Byte)} (hd : m.IsStr dd [45#8, 45#8]) (ho : m.IsStr optstring (optString quiet opts))
    (ho0 : optstring ≠ 0) (hol : (optString quiet opts).length < 2147483648) (hok : Spec.OptsOk opts) (hc : c ≠ 58#8)
    (h : ReRep m s (c :: cs) rest before) :
    ∃ p, argvAt s.argv s.optind = .ok p ∧ m.IsStr (p + (s.pos + 1)) cs ∧ RWords m s.argv (s.optind + 1) rest before ∧
      regetoptLoop m dd optstring longs li argc s = (match Spec.optKind opts c with
        | none => .ok (reSay { s with optopt := c.toInt }, 63)
        | some true => reShortArg p (s.pos + 1 + cs.length) s.optArgc { s with optopt := c.toInt }
        | some false => .ok ({ s with optopt := c.toInt, pos := s.pos + 1 }, c.toInt) : Res (Regetopt × Int)) := by
  obtain ⟨h0, ⟨h1, -, -⟩ | ⟨p, d, w, h1, h2, h3, h4, h5, h6, h7, h8, h9⟩⟩ := h
  · cases h1
  · have hlen := rWords_length h9
    obtain ⟨a1, a2, a3, a4⟩ := isStr_drop_cons h3 h7
    have hwl : w.length + 2 = s.pos + 1 + cs.length := by
      have := congrArg List.length h7
      simp at this; omega
    refine ⟨p, h1, a3, h9, ?_⟩
    rw [loop_word hd (by omega) h1 h2 h3 (by simp; omega), wordKind_short h4]
    simp only [List.length_cons]
    rw [if_neg (by omega)]
    unfold reShort
    rw [h1, Res.ok_bind, C01_strlen h3 h2 (by simp; omega), Res.ok_bind, load_some a1, Res.ok_bind, C01_strlen ho ho0 hol, Res.ok_bind,
      reFind_opts ho hok hc, Res.ok_bind]
    have e : (45#8 :: d :: w).length = s.pos + 1 + cs.length := by simp; omega
    rw [e]
    cases Spec.optKind opts c with
    | none => rfl
    | some b => cases b <;> rfl

theorem strchrnul_value {m : Mem} {p : Nat} {l : List Byte} (h : m.IsStr p l) :
    strchrnul m p 61 = .ok (p + (Spec.longName l).length) := by
  induction l generalizing p with
  | nil => rw [strchrnul_end (isStr_nil.1 h)]; rfl
  | cons b l ih =>
    obtain ⟨h1, h2, h3⟩ := isStr_cons.1 h
    have e := strchrnul_step (c := 61#8) h1 h2
    rw [show (61#8 : BitVec 8).toInt = 61 by decide] at e
    rw [e]
    unfold Spec.longName
    by_cases hb : b = 61#8
    · rw [if_pos hb, List.takeWhile_cons_of_neg (by simp [hb])]; rfl
    · rw [if_neg hb, ih h3, List.takeWhile_cons_of_pos (by simp [hb]), List.length_cons]
      unfold Spec.longName
      congr 1; omega

theorem longName_append (l : List Byte) : ∃ v, l = Spec.longName l ++ v := ⟨_, (List.takeWhile_append_dropWhile).symm⟩

theorem strchr_value {m : Mem} {p : Nat} {l : List Byte} (h : m.IsStr p l) (hp : p ≠ 0) :
    (Spec.longValue l = none ∧ strchr m p 61 = .ok 0 ∧ (Spec.longName l).length = l.length) ∨
      ∃ v, Spec.longValue l = some v ∧ strchr m p 61 = .ok (p + (Spec.longName l).length) ∧ m.IsStr (p + (Spec.longName l).length + 1) v := by
  have hl : Spec.longName l ++ l.dropWhile (fun b => decide (b ≠ 61#8)) = l := List.takeWhile_append_dropWhile
  have hle : (Spec.longName l).length ≤ l.length := by
    conv => rhs; rw [← hl]
    simp
  have hdrop : l.drop (Spec.longName l).length = l.dropWhile (fun b => decide (b ≠ 61#8)) := by
    have key : ∀ a b : List Byte, a ++ b = l → l.drop a.length = b := by
      intro a b e; rw [← e]; simp
    exact key _ _ hl
  have hs := isStr_drop h hle
  rw [hdrop] at hs
  unfold strchr
  rw [strchrnul_value h, Res.ok_bind, if_neg (by decide)]
  unfold Spec.longValue
  cases hv : l.dropWhile (fun b => decide (b ≠ 61#8)) with
  | nil =>
    left
    rw [hv] at hs hl
    rw [load_some (isStr_nil.1 hs), Res.ok_bind, if_pos rfl]
    refine ⟨rfl, rfl, ?_⟩
    conv => rhs; rw [← hl]
    simp
  | cons b v =>
    right
    rw [hv] at hs
    obtain ⟨h1, h2, h3⟩ := isStr_cons.1 hs
    refine ⟨v, rfl, ?_, h3⟩
    rw [load_some h1, Res.ok_bind, if_neg h2]; rfl

theorem longName_dashes (l : List Byte) : Spec.longName (45#8 :: 45#8 :: l) = 45#8 :: 45#8 :: Spec.longName l := by
  unfold Spec.longName
  rw [List.takeWhile_cons_of_pos (by decide), List.takeWhile_cons_of_pos (by decide)]

theorem longValue_dashes (l : List Byte) : Spec.longValue (45#8 :: 45#8 :: l) = Spec.longValue l := by
  unfold Spec.longValue
  rw [List.dropWhile_cons_of_pos (by decide), List.dropWhile_cons_of_pos (by decide)]

/-- A long option is searched in the table. -/
theorem loop_long {m : Mem} {dd optstring : Nat} {longs : List ReOption} {li : Bool} {argc : Nat} {s : Regetopt} {w l : List Byte}
    {specs : List Spec.LOpt} {rest before : List (List Byte)} (hd : m.IsStr dd [45#8, 45#8]) (hl : LongsAre m longs specs)
    (h : ReRep m s [] (w :: rest) before) (hk : Spec.wordKind w = .long l) :
    ∃ s1 eq, s1.pos = 1 ∧ RWords m s1.argv s1.optind (w :: rest) before ∧ RWords m s1.argv (s1.optind + 1) rest before ∧ s1.optArgc = (s1.argv.length : Int) - 1 - before.length ∧
      ReKeep s s1 ∧ s1.argv = s.argv ∧ ((Spec.longValue l = none ∧ eq = 0) ∨ ∃ v, Spec.longValue l = some v ∧ eq ≠ 0 ∧ m.IsStr (eq + 1) v) ∧
      regetoptLoop m dd optstring longs li argc s = (match pickFrom (Spec.longName l) (specs.map (·.name)) 0 (-1) with
        | none => .ok (reSay s1, 63)
        | some index =>
          if index < 0 then .ok ({ s1 with said := s1.said + 1 }, 63)
          else match longs[index.toNat]? with
            | none => .ub
            | some o => do
              let r ← reLongArg s1.optArgc o.hasArg eq s1
              match r with
              | none => pure (reSay s1, 63)
              | some s => pure (reLongEnd li index o s) : Res (Regetopt × Int)) := by
  obtain ⟨s1, e1, h1, h2, h3, h4, h5⟩ := loop_open (optstring := optstring) (longs := longs) (li := li) (argc := argc) hd h
  obtain ⟨p, a1, a2, a3, a4, a5⟩ := rWords_cons h2
  have hlen := rWords_length h2
  have hw := wordKind_long_inv hk
  subst hw
  obtain ⟨-, -, b1⟩ := isStr_cons.1 a3
  obtain ⟨-, -, b2⟩ := isStr_cons.1 b1
  rw [Nat.add_assoc] at b2
  obtain ⟨v, hv⟩ := longName_append l
  have b3 := b2
  rw [hv] at b3
  have hm : reMatch m p (Spec.longName l).length longs 0 (-1) = .ok (pickFrom (Spec.longName l) (specs.map (·.name)) 0 (-1)) :=
    reMatch_eq b3 hl
  have hn : (s1.optind : Int) < s1.optArgc := by simp at hlen; omega
  rcases strchr_value a3 a2 with ⟨c1, c2, c3⟩ | ⟨v, c1, c2, c3⟩
  · refine ⟨s1, 0, h1, h2, a5, h3, h4, h5, Or.inl ⟨by rw [← longValue_dashes]; exact c1, rfl⟩, ?_⟩
    rw [e1, loop_word hd hn a1 a2 a3 (by omega), hk]
    simp only
    unfold reLong
    rw [a1, Res.ok_bind, c2, Res.ok_bind, if_neg (by simp), C01_strlen a3 a2 (by omega), Res.ok_bind]
    rw [longName_dashes] at c3
    simp only [List.length_cons] at c3 ⊢
    have e : (((l.length + 1 + 1 : Nat) : Int) - 2) = (Spec.longName l).length := by omega
    simp only [Res.pure_eq, Res.ok_bind]
    rw [e, hm, Res.ok_bind]
    rfl
  · rw [longValue_dashes] at c1
    refine ⟨s1, _, h1, h2, a5, h3, h4, h5, Or.inr ⟨v, c1, ?_, c3⟩, ?_⟩
    · omega
    · rw [e1, loop_word hd hn a1 a2 a3 (by omega), hk]
      simp only
      unfold reLong
      rw [a1, Res.ok_bind, c2, Res.ok_bind, if_pos (by omega)]
      rw [longName_dashes]
      simp only [List.length_cons]
      have e : (((p + ((Spec.longName l).length + 1 + 1) : Nat) : Int) - p - 2) = (Spec.longName l).length := by omega
      simp only [Res.pure_eq, Res.ok_bind]
      rw [e, hm, Res.ok_bind]
      rfl

theorem rep_congr {m : Mem} {s s' : Regetopt} {cur : List Byte} {rest before : List (List Byte)} (h : ReRep m s cur rest before)
    (h1 : s'.argv = s.argv) (h2 : s'.optind = s.optind) (h3 : s'.pos = s.pos) (h4 : s'.optArgc = s.optArgc) : ReRep m s' cur rest before := by
  unfold ReRep
  rw [h1, h2, h3, h4]
  exact h

theorem reSay_fields (s : Regetopt) : (reSay s).argv = s.argv ∧ (reSay s).optind = s.optind ∧ (reSay s).pos = s.pos ∧
    (reSay s).optArgc = s.optArgc ∧ (reSay s).optopt = s.optopt := by
  unfold reSay
  split <;> exact ⟨rfl, rfl, rfl, rfl, rfl⟩

end Minilib

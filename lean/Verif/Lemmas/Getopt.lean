import Verif.Model.Getopt
import Verif.Spec.Getopt
import Verif.Props.Str
import Mathlib.Data.List.Forall2
/-
Lemmas about contrib/getopt/getopt.h.
-/

set_option autoImplicit false

namespace Minilib
open Mem

theorem alnum_iff : ∀ b : Byte, isalnum (b.signExtend 32) = true ↔ Spec.Alnum b := by decide +kernel

theorem strchrnul_step {m : Mem} {p : Nat} {b c : Byte} (h : m p = some b) (hb : b ≠ 0#8) :
    strchrnul m p c.toInt = if b = c then .ok p else strchrnul m (p + 1) c.toInt := by
  rw [strchrnul, load_some h, Res.ok_bind, if_pos hb]
  by_cases he : b = c
  · rw [if_pos (by rw [he]), if_pos he]; rfl
  · rw [if_neg (fun h => he (BitVec.toInt_inj.1 h)), if_neg he]

theorem strchrnul_end {m : Mem} {p : Nat} {c : Int} (h : m p = some 0#8) : strchrnul m p c = .ok p := by
  rw [strchrnul, load_some h, Res.ok_bind, if_neg (by simp)]; rfl

/-- What strchr finds in an option string. -/
def OptAt (m : Mem) (q : Nat) (c : Byte) : Option Bool → Prop
  | none => m q = some 0#8
  | some b => m q = some c ∧ ∃ k, m (q + 1) = some k ∧ (k = 58#8 ↔ b = true)

theorem optText_head {m : Mem} {p : Nat} {opts : Spec.Opts} (h : m.IsStr p (Spec.optText opts)) (hok : Spec.OptsOk opts) :
    ∃ k, m p = some k ∧ k ≠ 58#8 := by
  cases opts with
  | nil => exact ⟨0#8, isStr_nil.1 h, by decide⟩
  | cons o opts =>
    obtain ⟨c, b⟩ := o
    refine ⟨c, ?_, (hok (c, b) (by simp)).2⟩
    cases b
    · exact (isStr_cons.1 (show m.IsStr p (c :: Spec.optText opts) from h)).1
    · exact (isStr_cons.1 (show m.IsStr p (c :: 58#8 :: Spec.optText opts) from h)).1

theorem optKind_cons (o : BitVec 8 × Bool) (opts : Spec.Opts) (c : BitVec 8) :
    Spec.optKind (o :: opts) c = if o.1 = c then some o.2 else Spec.optKind opts c := by
  unfold Spec.optKind
  by_cases h : o.1 = c <;> simp [h]

theorem strchrnul_opts {m : Mem} {p : Nat} {opts : Spec.Opts} {c : Byte} (h : m.IsStr p (Spec.optText opts))
    (hok : Spec.OptsOk opts) (hc : c ≠ 58#8) :
    ∃ q, strchrnul m p c.toInt = .ok q ∧ p ≤ q ∧ OptAt m q c (Spec.optKind opts c) := by
  induction opts generalizing p with
  | nil => exact ⟨p, strchrnul_end (isStr_nil.1 h), Nat.le_refl _, isStr_nil.1 h⟩
  | cons o opts ih =>
    obtain ⟨x, b⟩ := o
    have hx := hok (x, b) (by simp)
    have hok' : Spec.OptsOk opts := fun o ho => hok o (by simp [ho])
    rw [optKind_cons]
    dsimp only
    cases b with
    | false =>
      obtain ⟨h1, h2, h3⟩ := isStr_cons.1 (show m.IsStr p (x :: Spec.optText opts) from h)
      rw [strchrnul_step h1 h2]
      by_cases he : x = c
      · rw [if_pos he, if_pos he]
        obtain ⟨k, hk, hk'⟩ := optText_head h3 hok'
        exact ⟨p, rfl, Nat.le_refl _, by rw [h1, he], k, hk, by simp [hk']⟩
      · rw [if_neg he, if_neg he]
        obtain ⟨q, e, hle, ha⟩ := ih h3 hok'
        exact ⟨q, e, by omega, ha⟩
    | true =>
      obtain ⟨h1, h2, h3⟩ := isStr_cons.1 (show m.IsStr p (x :: 58#8 :: Spec.optText opts) from h)
      obtain ⟨h4, h5, h6⟩ := isStr_cons.1 h3
      rw [strchrnul_step h1 h2]
      by_cases he : x = c
      · rw [if_pos he, if_pos he]
        exact ⟨p, rfl, Nat.le_refl _, by rw [h1, he], _, h4, by simp⟩
      · rw [if_neg he, if_neg he, strchrnul_step h4 h5, if_neg (Ne.symm hc)]
        obtain ⟨q, e, hle, ha⟩ := ih h6 hok'
        exact ⟨q, e, by omega, ha⟩

/-- The option string may start with a colon. -/
def optString (quiet : Bool) (opts : Spec.Opts) : List Byte := if quiet then 58#8 :: Spec.optText opts else Spec.optText opts

theorem strchr_opts {m : Mem} {p : Nat} {quiet : Bool} {opts : Spec.Opts} {c : Byte} (h : m.IsStr p (optString quiet opts))
    (hp : p ≠ 0) (hok : Spec.OptsOk opts) (hc : c ≠ 58#8) (h0 : c ≠ 0#8) :
    (Spec.optKind opts c = none ∧ strchr m p c.toInt = .ok 0) ∨
      ∃ q b k, Spec.optKind opts c = some b ∧ strchr m p c.toInt = .ok q ∧ q ≠ 0 ∧ m (q + 1) = some k ∧ (k = 58#8 ↔ b = true) := by
  have key : ∃ q, strchrnul m p c.toInt = .ok q ∧ p ≤ q ∧ OptAt m q c (Spec.optKind opts c) := by
    cases quiet with
    | false => exact strchrnul_opts h hok hc
    | true =>
      obtain ⟨h1, h2, h3⟩ := isStr_cons.1 (show m.IsStr p (58#8 :: Spec.optText opts) from h)
      obtain ⟨q, e, hle, ha⟩ := strchrnul_opts h3 hok hc
      exact ⟨q, by rw [strchrnul_step h1 h2, if_neg (Ne.symm hc), e], by omega, ha⟩
  obtain ⟨q, e, hle, ha⟩ := key
  have hi : c.toInt ≠ 0 := by
    intro h'
    exact h0 (BitVec.toInt_inj.1 (h'.trans (by decide)))
  unfold strchr
  rw [e, Res.ok_bind, if_neg hi]
  cases hk : Spec.optKind opts c with
  | none =>
    rw [hk] at ha
    left
    rw [load_some ha, Res.ok_bind, if_pos rfl]
    exact ⟨rfl, rfl⟩
  | some b =>
    rw [hk] at ha
    obtain ⟨h1, k, h2, h3⟩ := ha
    right
    refine ⟨q, b, k, rfl, ?_, by omega, h2, h3⟩
    rw [load_some h1, Res.ok_bind, if_neg h0]; rfl

/-- The pointers from `i` on are those of the words, and NULL. -/
def ArgsAt (m : Mem) (argv : List Nat) (i : Nat) (ws : List (List Byte)) : Prop :=
  ∃ ptrs, argv.drop i = ptrs ++ [0] ∧ (∀ p ∈ ptrs, p ≠ 0) ∧ List.Forall₂ (fun p w => m.IsStr p w) ptrs ws

theorem argsAt_nil {m : Mem} {argv : List Nat} {i : Nat} (h : ArgsAt m argv i []) : argvAt argv i = .ok 0 := by
  obtain ⟨ptrs, h1, h2, h3⟩ := h
  cases h3
  have := congrArg List.head? h1
  rw [List.head?_drop] at this
  unfold argvAt
  rw [this]; rfl

theorem argsAt_cons {m : Mem} {argv : List Nat} {i : Nat} {w : List Byte} {ws : List (List Byte)}
    (h : ArgsAt m argv i (w :: ws)) :
    ∃ p, argvAt argv i = .ok p ∧ p ≠ 0 ∧ m.IsStr p w ∧ ArgsAt m argv (i + 1) ws := by
  obtain ⟨ptrs, h1, h2, h3⟩ := h
  cases h3 with
  | @cons p _ ptrs _ hp hps =>
    refine ⟨p, ?_, h2 p (by simp), hp, ptrs, ?_, fun q hq => h2 q (by simp [hq]), hps⟩
    · have := congrArg List.head? h1
      rw [List.head?_drop] at this
      unfold argvAt
      rw [this]; rfl
    · rw [← List.drop_drop, h1]; rfl

/-- The variables of getopt when the characters `cur` of the current word and the words `rest` are left. -/
def OptRep (m : Mem) (argv : List Nat) (s : Getopt) (cur : List Byte) (rest : List (List Byte)) : Prop :=
  s.optind ≠ 0 ∧
  match cur with
  | [] => s.optpos = 1 ∧ ArgsAt m argv s.optind rest
  | c :: cs => ∃ p w d, argvAt argv s.optind = .ok p ∧ p ≠ 0 ∧ m.IsStr p (45#8 :: d :: w) ∧ Spec.Alnum d ∧ 1 ≤ s.optpos ∧
      (45#8 :: d :: w).drop s.optpos = c :: cs ∧ ArgsAt m argv (s.optind + 1) rest

theorem isStr_drop_cons {m : Mem} {p k : Nat} {x cs : List Byte} {c : Byte} (h : m.IsStr p x) (hk : x.drop k = c :: cs) :
    m (p + k) = some c ∧ c ≠ 0#8 ∧ m.IsStr (p + (k + 1)) cs ∧ x.drop (k + 1) = cs := by
  have hle : k ≤ x.length := by
    by_cases hl : k ≤ x.length
    · exact hl
    · rw [List.drop_eq_nil_of_le (by omega)] at hk; cases hk
  have h1 := isStr_drop h hle
  rw [hk] at h1
  obtain ⟨a, b, d⟩ := isStr_cons.1 h1
  refine ⟨a, b, d, ?_⟩
  rw [← List.drop_drop, hk]; rfl

theorem strcmp_dashes {m : Mem} {p dd : Nat} {w : List Byte} (h : m.IsStr p w) (hd : m.IsStr dd [45#8, 45#8]) :
    ∃ r, strcmp m p dd = .ok r ∧ (r = 0 ↔ w = [45#8, 45#8]) := by
  obtain ⟨d1, -, d2⟩ := isStr_cons.1 hd
  obtain ⟨d3, -, d4⟩ := isStr_cons.1 d2
  have d5 := isStr_nil.1 d4
  have key : ∀ {b x : Byte}, b ≠ x → ((b.toNat : Int) - (x.toNat : Int) = 0 ↔ False) := by
    intro b x hb
    refine ⟨fun h => hb (BitVec.eq_of_toNat_eq (by omega)), False.elim⟩
  unfold strcmp
  cases w with
  | nil =>
    refine ⟨_, by rw [strcmpCore, load_some (isStr_nil.1 h), Res.ok_bind, load_some d1, Res.ok_bind, if_pos (by decide)]; rfl, ?_⟩
    decide
  | cons a w =>
    obtain ⟨h1, h2, h3⟩ := isStr_cons.1 h
    by_cases ha : a = 45#8
    · subst ha
      rw [strcmpCore, load_some h1, Res.ok_bind, load_some d1, Res.ok_bind, if_neg (by decide), if_neg (by decide),
        decInt_ok (n := -1) (by decide), Res.ok_bind, if_pos (by decide), strcmpCore]
      cases w with
      | nil =>
        refine ⟨_, by rw [load_some (isStr_nil.1 h3), Res.ok_bind, load_some d3, Res.ok_bind, if_pos (by decide)]; rfl, ?_⟩
        decide
      | cons b w =>
        obtain ⟨h4, h5, h6⟩ := isStr_cons.1 h3
        by_cases hb : b = 45#8
        · subst hb
          rw [load_some h4, Res.ok_bind, load_some d3, Res.ok_bind, if_neg (by decide), if_neg (by decide),
            decInt_ok (n := -1 - 1) (by decide), Res.ok_bind, if_pos (by decide), strcmpCore]
          cases w with
          | nil =>
            refine ⟨_, by rw [load_some (isStr_nil.1 h6), Res.ok_bind, load_some d5, Res.ok_bind, if_neg (by decide), if_pos rfl]; rfl, ?_⟩
            simp
          | cons c w =>
            obtain ⟨h7, h8, h9⟩ := isStr_cons.1 h6
            refine ⟨_, by rw [load_some h7, Res.ok_bind, load_some d5, Res.ok_bind, if_pos h8]; rfl, ?_⟩
            rw [key h8]; simp
        · refine ⟨_, by rw [load_some h4, Res.ok_bind, load_some d3, Res.ok_bind, if_pos hb]; rfl, ?_⟩
          rw [key hb]; simp [hb]
    · refine ⟨_, by rw [strcmpCore, load_some h1, Res.ok_bind, load_some d1, Res.ok_bind, if_pos ha]; rfl, ?_⟩
      rw [key ha]; simp [ha]

theorem getoptDashes_eq {m : Mem} {p dd : Nat} {w : List Byte} (h : m.IsStr p w) (hp : p ≠ 0) (hd : m.IsStr dd [45#8, 45#8]) :
    getoptDashes m dd p = .ok (decide (w = [45#8, 45#8])) := by
  obtain ⟨r, e, hr⟩ := strcmp_dashes h hd
  unfold getoptDashes
  rw [if_neg hp, e, Res.ok_bind]
  by_cases hw : w = [45#8, 45#8]
  · simp [hw, hr.2 hw]
  · simp only [hw, decide_false]
    have : ¬ r = 0 := fun h => hw (hr.1 h)
    simp [this]

theorem getoptStop_eq {m : Mem} {p : Nat} {w : List Byte} (h : m.IsStr p w) (hp : p ≠ 0) :
    getoptStop m p = .ok (decide (Spec.cluster w = none)) := by
  unfold getoptStop
  rw [if_neg hp]
  cases w with
  | nil => rw [load_some (isStr_nil.1 h), Res.ok_bind, if_pos (by decide)]; rfl
  | cons a w =>
    obtain ⟨h1, h2, h3⟩ := isStr_cons.1 h
    rw [load_some h1, Res.ok_bind]
    by_cases ha : a = 45#8
    · subst ha
      rw [if_neg (by simp)]
      cases w with
      | nil => rw [load_some (isStr_nil.1 h3), Res.ok_bind]; rfl
      | cons b w =>
        obtain ⟨h4, h5, h6⟩ := isStr_cons.1 h3
        rw [load_some h4, Res.ok_bind]
        by_cases hb : Spec.Alnum b
        · have hb' := (alnum_iff b).2 hb
          rw [hb']
          simp [Spec.cluster, hb]
        · have hb' : isalnum (b.signExtend 32) = false := by
            cases hx : isalnum (b.signExtend 32)
            · rfl
            · exact absurd ((alnum_iff b).1 hx) hb
          rw [hb']
          simp [Spec.cluster, hb]
    · rw [if_pos ha]
      cases w <;> simp [Spec.cluster, ha]

/-- The first words of getopt, up to the option character. -/
theorem getopt_at {m : Mem} {dd : Nat} {argv : List Nat} {optstring : Nat} {s : Getopt} {c : Byte} {cs : List Byte}
    {rest : List (List Byte)} (hd : m.IsStr dd [45#8, 45#8]) (h : OptRep m argv s (c :: cs) rest) :
    ∃ p, getopt m dd argv optstring s = getoptAt m argv optstring p s ∧ p ≠ 0 ∧ m (p + s.optpos) = some c ∧ c ≠ 0#8 ∧
      m.IsStr (p + (s.optpos + 1)) cs := by
  obtain ⟨h0, p, w, d, h1, h2, h3, h4, h5, h6, h7⟩ := h
  obtain ⟨a1, a2, a3, -⟩ := isStr_drop_cons h3 h6
  refine ⟨p, ?_, h2, a1, a2, a3⟩
  have hne : (45#8 :: d :: w : List Byte) ≠ [45#8, 45#8] := by
    intro h
    injection h with _ h
    injection h with h _
    subst h
    revert h4; decide
  have hcl : Spec.cluster (45#8 :: d :: w) = some (d :: w) := by simp [Spec.cluster, h4]
  unfold getopt
  have hr : getoptReset s = s := by unfold getoptReset; rw [if_neg h0]
  dsimp only
  rw [hr, h1, Res.ok_bind, getoptDashes_eq h3 h2 hd, Res.ok_bind, decide_eq_false hne, if_neg (by simp),
    getoptStop_eq h3 h2, Res.ok_bind, hcl, if_neg (by simp)]

end Minilib

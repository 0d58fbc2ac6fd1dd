import Verif.Spec.Confsh
import Verif.Props.Genconf
/-
Configuration files: the names listed and the switches turned on.
-/

set_option autoImplicit false

namespace Minilib
open _root_.Spec

/-! ### Splitting lists -/

/-- Splitting at commas as well. -/
def sepByte (b : Byte) : Bool := isIfs b || b == 44#8

def sepSplit (w : Line) : Line → List Line
  | [] => if w = [] then [] else [w]
  | b :: l => if sepByte b then (if w = [] then sepSplit [] l else w :: sepSplit [] l) else sepSplit (w ++ [b]) l

theorem sepByte_iff (b : Byte) : sepByte b = true ↔ IsSep b := by
  unfold sepByte isIfs IsSep
  simp only [Bool.or_eq_true, beq_iff_eq]
  constructor
  · rintro (((h | h) | h) | h) <;> simp [h]
  · rintro (h | h | h | h) <;> simp [h]

theorem shSplit_tr (l : Line) : ∀ w, shSplit w (trComma l) = sepSplit w l := by
  induction l with
  | nil => intro w; rfl
  | cons b l ih =>
    intro w
    have e : trComma (b :: l) = (if b = 44#8 then 32#8 else b) :: trComma l := rfl
    rw [e, shSplit, sepSplit]
    by_cases h : b = 44#8
    · subst h
      have h1 : isIfs (if (44#8 : Byte) = 44#8 then 32#8 else 44#8) = true := by decide
      have h2 : sepByte 44#8 = true := by decide
      rw [h1, h2]
      simp only [if_true, ih]
    · rw [if_neg h]
      have h2 : sepByte b = isIfs b := by unfold sepByte; simp [h]
      rw [h2, ih, ih]

theorem sepSplit_sep {c : Byte} (hc : sepByte c = true) (r : Line) : ∀ (a w : Line), sepSplit w (a ++ c :: r) = sepSplit w a ++ sepSplit [] r := by
  intro a
  induction a with
  | nil =>
    intro w
    show (if sepByte c then _ else _) = (if w = [] then [] else [w]) ++ _
    rw [if_pos hc]
    by_cases h : w = [] <;> simp [h]
  | cons b a ih =>
    intro w
    rw [List.cons_append, sepSplit, sepSplit]
    by_cases hb : sepByte b = true
    · rw [if_pos hb, if_pos hb, ih]
      by_cases h : w = [] <;> simp [h]
    · rw [if_neg hb, if_neg hb, ih]

theorem sepSplit_echo (l : List Line) : sepSplit [] (shEcho l) = l.flatMap (sepSplit []) := by
  induction l with
  | nil => rfl
  | cons a r ih =>
    cases r with
    | nil => simp [shEcho]
    | cons b r => rw [shEcho, sepSplit_sep (by decide), ih]; rfl

theorem sepSplit_words (a : Line) : ∀ w, (shSplit w a).flatMap (sepSplit []) = sepSplit [] (w ++ a) := by
  induction a with
  | nil =>
    intro w
    rw [shSplit]
    by_cases h : w = []
    · subst h; rfl
    · simp [h]
  | cons b a ih =>
    intro w
    rw [shSplit]
    by_cases hb : isIfs b = true
    · rw [if_pos hb, sepSplit_sep (by unfold sepByte; rw [hb]; rfl)]
      by_cases h : w = []
      · rw [if_pos h, ih, h]; rfl
      · rw [if_neg h, List.flatMap_cons, ih]; rfl
    · rw [if_neg hb, ih, List.append_assoc]; rfl

theorem compileWords_eq (args : List Line) : compileWords args = args.flatMap (sepSplit []) := by
  rw [compileWords, shSplit_tr, sepSplit_echo, List.flatMap_assoc]
  congr 1
  funext a
  exact sepSplit_words a []

theorem mem_sepSplit {x : Line} (l : Line) : ∀ w, (∀ b ∈ w, ¬ IsSep b) → (x ∈ sepSplit w l ↔ NameIn x (w ++ l)) := by
  induction l with
  | nil =>
    intro w hw
    rw [sepSplit, List.append_nil]
    constructor
    · intro h
      by_cases h0 : w = []
      · rw [if_pos h0] at h; cases h
      · rw [if_neg h0, List.mem_singleton] at h
        subst h
        exact ⟨h0, hw, [], [], by simp, by simp, by simp⟩
    · rintro ⟨h0, h1, p, s, e, hp, hs⟩
      have p0 : p = [] := by
        cases hpl : p.getLast? with
        | none => exact List.getLast?_eq_none_iff.1 hpl
        | some c => exact absurd (hp c hpl) (hw c (by rw [e]; simp [List.mem_of_getLast? hpl]))
      have s0 : s = [] := by
        cases s with
        | nil => rfl
        | cons c s => exact absurd (hs c rfl) (hw c (by rw [e]; simp))
      subst p0; subst s0
      simp only [List.nil_append, List.append_nil] at e
      subst e
      simp [h0]
  | cons b l ih =>
    intro w hw
    rw [sepSplit]
    by_cases hb : sepByte b = true
    · have hb' := (sepByte_iff b).1 hb
      have key : NameIn x (w ++ b :: l) ↔ (w ≠ [] ∧ x = w) ∨ NameIn x l := by
        constructor
        · rintro ⟨h0, h1, p, s, e, hp, hs⟩
          rw [List.append_assoc] at e
          rcases List.append_eq_append_iff.1 e with ⟨a, e1, e2⟩ | ⟨a, e1, e2⟩
          · -- p = w ++ a, b :: l = a ++ (x ++ s)
            cases a with
            | nil =>
              exfalso
              cases x with
              | nil => exact h0 rfl
              | cons y x =>
                simp only [List.nil_append, List.cons_append, List.cons.injEq] at e2
                exact h1 y (by simp) (e2.1 ▸ hb')
            | cons y a =>
              simp only [List.cons_append, List.cons.injEq] at e2
              refine Or.inr ⟨h0, h1, a, s, by rw [e2.2, List.append_assoc], ?_, hs⟩
              intro c hc
              refine hp c ?_
              rw [e1, List.getLast?_append]
              cases a with
              | nil => cases hc
              | cons z a => rw [List.getLast?_cons_cons, hc]; rfl
          · -- w = p ++ a, x ++ s = a ++ b :: l
            have p0 : p = [] := by
              cases hpl : p.getLast? with
              | none => exact List.getLast?_eq_none_iff.1 hpl
              | some c => exact absurd (hp c hpl) (hw c (by rw [e1]; simp [List.mem_of_getLast? hpl]))
            subst p0
            rw [List.nil_append] at e1
            subst e1
            left
            rcases List.append_eq_append_iff.1 e2 with ⟨a, f1, f2⟩ | ⟨a, f1, f2⟩
            · -- w = x ++ a, s = a ++ b :: l
              cases a with
              | nil => rw [List.append_nil] at f1; exact ⟨f1 ▸ h0, f1.symm⟩
              | cons y a =>
                refine absurd (hs y (by rw [f2]; rfl)) (hw y (by rw [f1]; simp))
            · cases a with
              | nil => rw [List.append_nil] at f1; exact ⟨f1 ▸ h0, f1⟩
              | cons y a =>
                simp only [List.cons_append, List.cons.injEq] at f2
                exact absurd (f2.1 ▸ hb') (h1 y (by rw [f1]; simp))
        · rintro (⟨h0, rfl⟩ | ⟨h0, h1, p, s, e, hp, hs⟩)
          · exact ⟨h0, hw, [], b :: l, by simp, by simp, by rintro c hc; cases hc; exact hb'⟩
          · refine ⟨h0, h1, w ++ b :: p, s, by rw [e]; simp, ?_, hs⟩
            intro c hc
            cases p with
            | nil => simp at hc; exact hc ▸ hb'
            | cons z p =>
              refine hp c ?_
              rw [List.getLast?_append, List.getLast?_cons_cons] at hc
              simpa using hc
      rw [if_pos hb, key]
      have h2 := ih [] (by simp)
      rw [List.nil_append] at h2
      by_cases h0 : w = []
      · rw [if_pos h0, h2]; simp [h0]
      · rw [if_neg h0, List.mem_cons, h2]; simp [h0]
    · rw [if_neg hb, ih]
      · simp
      · intro c hc
        rcases List.mem_append.1 hc with hc | hc
        · exact hw c hc
        · rw [List.mem_singleton] at hc
          exact fun h => hb ((sepByte_iff b).2 (hc ▸ h))

theorem mem_compileWords {x : Line} {args : List Line} : x ∈ compileWords args ↔ ∃ a ∈ args, NameIn x a := by
  rw [compileWords_eq, List.mem_flatMap]
  refine exists_congr fun a => and_congr_right fun _ => ?_
  exact mem_sepSplit a [] (by simp)

/-! ### The commands -/

theorem fold_defs {α : Type} {f : α → ConfOut} {d : Line × Line} (l : List α) :
    d ∈ (l.foldr (fun a o => (f a).append o) {}).defs ↔ ∃ a ∈ l, d ∈ (f a).defs := by
  induction l with
  | nil => simp
  | cons a l ih => rw [List.foldr_cons, ConfOut.append]; simp only [List.mem_append, ih, List.mem_cons, exists_eq_or_imp]

theorem fold_unknown {α : Type} {f : α → ConfOut} {u : Line} (l : List α) :
    u ∈ (l.foldr (fun a o => (f a).append o) {}).unknown ↔ ∃ a ∈ l, u ∈ (f a).unknown := by
  induction l with
  | nil => simp
  | cons a l ih => rw [List.foldr_cons, ConfOut.append]; simp only [List.mem_append, ih, List.mem_cons, exists_eq_or_imp]

theorem mini_inj {x y : Line} : txMini ++ x = txMini ++ y ↔ x = y := List.append_right_inj _

theorem on_single {n x v : Line} : (∃ v', (txMini ++ x, v') ∈ [(txMini ++ n, v)]) ↔ n = x := by
  constructor
  · rintro ⟨v', h⟩
    rw [List.mem_singleton, Prod.mk.injEq] at h
    exact (mini_inj.1 h.1).symm
  · rintro rfl; exact ⟨v, List.mem_singleton.2 rfl⟩

theorem mini_bare {x c : Line} (h : c ∈ confBare) : txMini ++ x ≠ c := by
  intro e
  have : ∀ c ∈ confBare, c.take 5 ≠ txMini := by decide
  exact this c h (by rw [← e]; rfl)

theorem mini_target {x c : Line} : txMini ++ x ≠ txMinilib ++ c := by
  intro e
  have := congrArg (List.take 5) e
  revert this
  show List.take 5 (_ :: _ :: _ :: _ :: _ :: x) = List.take 5 (_ :: _ :: _ :: _ :: _ :: _) → False
  simp only [List.take]
  decide

/-- What one function `mini_f` defines. -/
theorem miniFun_on {f x : Line} {args : List Line} (hx : x ∈ genconfTable) (hf : f = nmDefine → args = []) :
    On (miniFun f args) x ↔ f = x := by
  have hs : nmSetjmp ∉ genconfTable := by decide +kernel
  have hn : ([] : Line) ∉ genconfTable := by decide +kernel
  unfold miniFun On
  by_cases h1 : f ∈ genconfTable ∨ f = nmDirbufsize
  · rw [if_pos h1]
    exact on_single
  rw [if_neg h1]
  have hne : f ≠ x := fun e => h1 (Or.inl (e ▸ hx))
  by_cases h2 : f ∈ confValue
  · rw [if_pos h2]; exact on_single
  rw [if_neg h2]
  by_cases h3 : f ∈ confPlain
  · rw [if_pos h3]; exact on_single
  rw [if_neg h3]
  by_cases h4 : f = nmLongjmp
  · rw [if_pos h4]
    simp only [List.mem_singleton, Prod.mk.injEq, hne, iff_false]
    rintro ⟨v, e, _⟩
    exact hs ((mini_inj.1 e) ▸ hx)
  rw [if_neg h4]
  by_cases h5 : f ∈ confBare
  · rw [if_pos h5]
    simp only [List.mem_singleton, Prod.mk.injEq, hne, iff_false]
    rintro ⟨v, e, _⟩
    exact mini_bare h5 e
  rw [if_neg h5]
  by_cases h6 : f = nmDefine
  · rw [if_pos h6, hf h6]
    simp only [miniDefine, List.headD_nil, List.mem_singleton, Prod.mk.injEq, hne, iff_false]
    rintro ⟨v, e, _⟩
    exact hn ((mini_inj.1 e) ▸ hx)
  rw [if_neg h6]
  simp [hne]

theorem miniName_some {c f : Line} : miniName c = some f ↔ c = txMini ++ f := by
  unfold miniName
  constructor
  · intro h
    split at h
    · rename_i hp
      obtain ⟨t, rfl⟩ := hp
      simp only [List.drop_left, Option.some.injEq] at h
      rw [h]
    · cases h
  · rintro rfl
    rw [if_pos ⟨f, rfl⟩]; simp

/-- Not a line that defines any macro by its name. -/
def NoDefine (c : List Line) : Prop := ∀ n args, c = n :: args → n ≠ nb [100, 101, 102, 105, 110, 101] ∧ n ≠ nb [68, 69, 70, 73, 78, 69] ∧
  n ≠ nb [109, 105, 110, 105, 95, 100, 101, 102, 105, 110, 101]

theorem confCmd_on {c : List Line} {x : Line} (hx : x ∈ genconfTable) (hd : NoDefine c) : On (confCmd c) x ↔ Lists x c := by
  cases c with
  | nil => simp [confCmd, On, Lists]
  | cons c args =>
    obtain ⟨d1, d2, d3⟩ := hd c args rfl
    have hcs : c ∈ confCompile ↔ (c = nb [99, 111, 109, 112, 105, 108, 101] ∨ c = nb [67, 79, 77, 80, 73, 76, 69]) := by
      simp [confCompile]
    rw [confCmd]
    show _ ↔ c = txMini ++ x ∨ ((c = nb [99, 111, 109, 112, 105, 108, 101] ∨ c = nb [67, 79, 77, 80, 73, 76, 69]) ∧ ∃ a ∈ args, NameIn x a)
    rw [← hcs]
    by_cases h1 : c ∈ confCompile
    · rw [if_pos h1]
      have hm : c ≠ txMini ++ x := by
        rintro rfl
        rcases hcs.1 h1 with h | h
        · have := congrArg (List.take 1) h; revert this; show ([_] : Line) = [_] → False; decide
        · have := congrArg (List.take 1) h; revert this; show ([_] : Line) = [_] → False; decide
      simp only [hm, h1, true_and, false_or]
      rw [← mem_compileWords]
      unfold On
      simp only [fold_defs]
      constructor
      · rintro ⟨v, f, hf, hv⟩
        exact (miniFun_on (args := []) hx (fun _ => rfl)).1 ⟨v, hv⟩ ▸ hf
      · intro h
        obtain ⟨v, hv⟩ := (miniFun_on (f := x) (args := []) hx (fun _ => rfl)).2 rfl
        exact ⟨v, x, h, hv⟩
    · rw [if_neg h1]
      simp only [h1, false_and, or_false]
      cases hn : miniName c with
      | some f =>
        have e := miniName_some.1 hn
        subst e
        rw [mini_inj]
        exact miniFun_on hx (fun h => absurd (by rw [h]; rfl) d3)
      | none =>
        have hm : c ≠ txMini ++ x := fun h => by rw [miniName_some.2 h] at hn; cases hn
        simp only [hm, iff_false]
        have k1 : nmOptimize ∉ genconfTable := by decide +kernel
        have k2 : nmStack ∉ genconfTable := by decide +kernel
        have k3 : nmRegister ∉ genconfTable := by decide +kernel
        rintro ⟨v, hv⟩
        by_cases h2 : c ∈ confTarget
        · rw [if_pos h2] at hv
          simp only [List.mem_singleton, Prod.mk.injEq] at hv
          exact mini_target hv.1
        rw [if_neg h2] at hv
        by_cases h3 : c ∈ confDefine
        · simp only [confDefine, List.mem_cons, List.not_mem_nil, or_false] at h3
          rcases h3 with h3 | h3
          · exact d1 h3
          · exact d2 h3
        rw [if_neg h3] at hv
        by_cases h4 : c ∈ confBare
        · rw [if_pos h4] at hv
          simp only [List.mem_singleton, Prod.mk.injEq] at hv
          exact mini_bare h4 hv.1
        rw [if_neg h4] at hv
        by_cases h5 : c = nmOptimize ∨ c = nmStack
        · rw [if_pos h5] at hv
          simp only [List.mem_singleton, Prod.mk.injEq] at hv
          have := mini_inj.1 hv.1
          rcases h5 with rfl | rfl
          · exact k1 (this ▸ hx)
          · exact k2 (this ▸ hx)
        rw [if_neg h5] at hv
        by_cases h6 : c = nmRegister
        · rw [if_pos h6] at hv
          simp only [List.mem_singleton, Prod.mk.injEq] at hv
          exact k3 (h6 ▸ (mini_inj.1 hv.1) ▸ hx)
        rw [if_neg h6] at hv
        split at hv <;> cases hv

/-- C114 (partial: the functions of minilib.genconf.h, and no line defines a macro by its name): a configuration switches on a function of the library if and
only if one of its lists has the name, on a line of its own or in any mixture of commas and blanks, whatever else is listed. -/
theorem C114_switch_partial (cmds : List (List Line)) (hd : ∀ c ∈ cmds, NoDefine c) (x : Line) (hx : x ∈ genconfTable) :
    On (confFile cmds) x ↔ ∃ c ∈ cmds, Lists x c := by
  unfold On confFile
  simp only [fold_defs]
  constructor
  · rintro ⟨v, c, hc, hv⟩
    exact ⟨c, hc, (confCmd_on hx (hd c hc)).1 ⟨v, hv⟩⟩
  · rintro ⟨c, hc, hl⟩
    obtain ⟨v, hv⟩ := (confCmd_on hx (hd c hc)).2 hl
    exact ⟨v, c, hc, hv⟩

/-- The names of the functions of genconfig.sh, besides those of the library: `dirbufsize`, `start`, `buf`, `setjmp`, `GETOPTS`, `syscalls`, `getopt`,
`getopt_long`, `longjmp`, `INCLUDESRC`, `HEADERGUARDS`, `define`. -/
def otherNames : List Line :=
  [nb [100, 105, 114, 98, 117, 102, 115, 105, 122, 101], nb [115, 116, 97, 114, 116], nb [98, 117, 102], nb [115, 101, 116, 106, 109, 112],
   nb [71, 69, 84, 79, 80, 84, 83], nb [115, 121, 115, 99, 97, 108, 108, 115], nb [103, 101, 116, 111, 112, 116],
   nb [103, 101, 116, 111, 112, 116, 95, 108, 111, 110, 103], nb [108, 111, 110, 103, 106, 109, 112],
   nb [73, 78, 67, 76, 85, 68, 69, 83, 82, 67], nb [72, 69, 65, 68, 69, 82, 71, 85, 65, 82, 68, 83], nb [100, 101, 102, 105, 110, 101]]

theorem miniFun_unknown {f u : Line} {args : List Line} :
    u ∈ (miniFun f args).unknown ↔ u = txMini ++ f ∧ f ∉ genconfTable ∧ f ∉ otherNames := by
  have ho : f ∈ otherNames ↔ f = nmDirbufsize ∨ f ∈ confValue ∨ f ∈ confPlain ∨ f = nmLongjmp ∨ f ∈ confBare ∨ f = nmDefine := by
    simp only [otherNames, confValue, confPlain, confBare, List.mem_cons, List.not_mem_nil, or_false, nmDirbufsize, nmLongjmp, nmDefine, or_assoc]
  rw [ho]
  unfold miniFun
  split
  · rename_i h
    simp only [miniDefine, List.not_mem_nil, false_iff]
    rintro ⟨_, h1, h2⟩
    rcases h with h | h
    · exact h1 h
    · exact h2 (Or.inl h)
  rename_i h1
  have h1' := not_or.1 h1
  repeat' split
  all_goals simp_all [miniDefine]

/-- C114: the names in a list for `compile` that are reported are exactly those which are neither functions of the library nor one of the other names; they
do not keep the rest of the list from being read. -/
theorem C114_unknown (c : Line) (hc : c = nb [99, 111, 109, 112, 105, 108, 101] ∨ c = nb [67, 79, 77, 80, 73, 76, 69]) (args : List Line) (u : Line) :
    u ∈ (confCmd (c :: args)).unknown ↔ ∃ x, u = txMini ++ x ∧ (∃ a ∈ args, NameIn x a) ∧ x ∉ genconfTable ∧ x ∉ otherNames := by
  have h1 : c ∈ confCompile := by rcases hc with rfl | rfl <;> decide
  rw [confCmd, if_pos h1, fold_unknown]
  constructor
  · rintro ⟨f, hf, hu⟩
    obtain ⟨h2, h3, h4⟩ := miniFun_unknown.1 hu
    exact ⟨f, h2, mem_compileWords.1 hf, h3, h4⟩
  · rintro ⟨x, h2, h3, h4, h5⟩
    exact ⟨x, mem_compileWords.2 h3, miniFun_unknown.2 ⟨h2, h4, h5⟩⟩

/-- C114: the value of a switch. A line `mini_x value` gives it, a name alone, or in a list, has itself as value. -/
theorem C114_value (x v : Line) (hx : x ∈ genconfTable) (hv : v ≠ []) (hs : ∀ b ∈ v, ¬ IsSep b) :
    (confCmd [txMini ++ x, v]).defs = [(txMini ++ x, v)] ∧ (confCmd [txMini ++ x]).defs = [(txMini ++ x, x)] := by
  have hc : txMini ++ x ∉ confCompile := by
    intro h
    have : ∀ c ∈ confCompile, c.take 5 ≠ txMini := by decide
    exact this _ h rfl
  have hw : ∀ (v w : Line), (∀ b ∈ v, ¬ IsSep b) → w ++ v ≠ [] → shSplit w v = [w ++ v] := by
    intro v
    induction v with
    | nil => intro w _ h; simp only [List.append_nil] at h ⊢; rw [shSplit, if_neg h]
    | cons b v ih =>
      intro w h h0
      have hb : isIfs b ≠ true := fun e => h b (by simp) ((sepByte_iff b).1 (by unfold sepByte; rw [e]; rfl))
      rw [shSplit, if_neg hb, ih _ (fun c hc => h c (List.mem_cons_of_mem _ hc)) (by simp)]
      simp
  constructor
  · rw [confCmd, if_neg hc, miniName_some.2 rfl]
    simp only [miniFun, hx, true_or, if_true, List.headD_cons]
    rw [hw v [] hs (by simpa using hv)]
    simp [miniDefine, hv]
  · rw [confCmd, if_neg hc, miniName_some.2 rfl]
    simp only [miniFun, hx, true_or, if_true, List.headD_nil]
    simp [miniDefine, shSplit]

/-- C114 (partial: as C113_compiled_partial): from a source to what is compiled, as `minimake --autoconf` does. The configuration made for the source is
read without errors, and with the switches it turns on everything is compiled that a function needs which the source calls, outside of the arguments of
another. -/
theorem C114_autoconf_partial {src : List CTok} (hsrc : ∀ t ∈ src, Clean t) (hcl : ¬ Inside genconfTable src) :
    ∃ names, genconf genconfTable src = some names ∧ (confFile (names.map fun n => [txMini ++ n])).unknown = [] ∧
      ∀ conf : Nat → Bool, (∀ i, conf i = true ↔ i < Sw.count ∧ i ≠ Sw.m_0 ∧ On (confFile (names.map fun n => [txMini ++ n])) (switchNames.getD i [])) →
      (∀ m ∈ depShort, conf m = false) → ∀ f, f < Sw.count → f ≠ Sw.m_0 → f ≠ Sw.m_getopt → f ∉ callWays.map (·.1) →
        (∃ pre, CallAt src pre (switchNames.getD f []) ∧ ¬ Inside genconfTable pre) →
        ∀ g, CalledFrom callTable (switches conf) f g → Compiled definedBy (switches conf) g := by
  obtain ⟨names, h1, h2, h3⟩ := C113_names_partial table_ok hsrc hcl
  have hc : ∀ n : Line, txMini ++ n ∉ confCompile := by
    intro n h
    have : ∀ c ∈ confCompile, c.take 5 ≠ txMini := by decide
    exact this _ h rfl
  refine ⟨names, h1, ?_, ?_⟩
  · refine List.eq_nil_iff_forall_not_mem.2 fun u hu => ?_
    rw [confFile, fold_unknown] at hu
    obtain ⟨c, hcm, hu⟩ := hu
    obtain ⟨n, hn, rfl⟩ := List.mem_map.1 hcm
    rw [confCmd, if_neg (hc n), miniName_some.2 rfl] at hu
    exact (miniFun_unknown.1 hu).2.1 ((h3 n).1 hn).1
  · intro conf hconf hs f hf h0 hg hw hp g hcal
    refine C106_calls_partial conf hs f ?_ hw g hcal
    have ht := (C113_table f hf h0).2 hg
    refine (hconf f).2 ⟨hf, h0, ?_⟩
    refine (C114_switch_partial _ ?_ _ ht).2 ⟨_, List.mem_map.2 ⟨_, (h3 _).2 ⟨ht, hp⟩, rfl⟩, Or.inl rfl⟩
    intro c hcm n args e
    obtain ⟨m, hm, rfl⟩ := List.mem_map.1 hcm
    simp only [List.cons.injEq] at e
    obtain ⟨e, _⟩ := e
    have hmt := ((h3 m).1 hm).1
    refine ⟨?_, ?_, ?_⟩
    · rintro rfl; have := congrArg (List.take 1) e; revert this; show ([_] : Line) = [_] → False; decide
    · rintro rfl; have := congrArg (List.take 1) e; revert this; show ([_] : Line) = [_] → False; decide
    · rintro rfl
      have e2 : txMini ++ m = txMini ++ nmDefine := e
      have k : nmDefine ∉ genconfTable := by decide +kernel
      exact k ((mini_inj.1 e2) ▸ hmt)

/-- C114 in full: every name that is listed and not reported is switched on. -/
def C114_full : Prop := ∀ (cmds : List (List Line)) (x : Line), (∃ c ∈ cmds, Lists x c) → txMini ++ x ∉ (confFile cmds).unknown → On (confFile cmds) x

/-- `compile longjmp` defines mini_setjmp, and not mini_longjmp. -/
theorem C114_refuted : ¬ C114_full := by
  intro h
  obtain ⟨v, hv⟩ := h [[nb [99, 111, 109, 112, 105, 108, 101], nmLongjmp]] nmLongjmp
    ⟨_, List.mem_singleton.2 rfl, Or.inr ⟨Or.inl rfl, nmLongjmp, by simp, by decide, by unfold IsSep; decide, [], [], by decide, by simp, by simp⟩⟩
    (by decide +kernel)
  have e : (confFile [[nb [99, 111, 109, 112, 105, 108, 101], nmLongjmp]]).defs = [(txMini ++ nmSetjmp, [])] := by decide +kernel
  rw [e] at hv
  simp only [List.mem_singleton, Prod.mk.injEq] at hv
  exact absurd hv.1 (by decide)

/-- `compile buf`: the size is defined as nothing. -/
theorem C114_buf_refuted : (confFile [[nb [99, 111, 109, 112, 105, 108, 101], nb [98, 117, 102]]]).defs = [(txMini ++ nb [98, 117, 102], [])] := by
  decide +kernel

/-- `compile "strlen,memcpy  write" nosuch` and `mini_buf 4096`. -/
def confEx : List (List Line) :=
  [[nb [99, 111, 109, 112, 105, 108, 101],
    nb [115, 116, 114, 108, 101, 110, 44, 109, 101, 109, 99, 112, 121, 32, 32, 119, 114, 105, 116, 101], nb [110, 111, 115, 117, 99, 104]],
   [nb [109, 105, 110, 105, 95, 98, 117, 102], nb [52, 48, 57, 54]]]

example : (confFile confEx).defs.map (fun d => d.1.drop 5) =
    [nb [115, 116, 114, 108, 101, 110], nb [109, 101, 109, 99, 112, 121], nb [119, 114, 105, 116, 101], nb [98, 117, 102]] := by decide +kernel
example : (confFile confEx).unknown = [nb [109, 105, 110, 105, 95, 110, 111, 115, 117, 99, 104]] := by decide +kernel
example : On (confFile confEx) (nb [109, 101, 109, 99, 112, 121]) :=
  (C114_switch_partial confEx (by intro c hc n args e; subst e; revert hc; simp only [confEx, List.mem_cons, List.cons.injEq, List.not_mem_nil, or_false]; rintro (⟨rfl, _⟩ | ⟨rfl, _⟩) <;> decide) _ (by decide +kernel)).2
    ⟨_, List.mem_cons_self, Or.inr ⟨Or.inl rfl, nb [115, 116, 114, 108, 101, 110, 44, 109, 101, 109, 99, 112, 121, 32, 32, 119, 114, 105, 116, 101], by simp,
      by decide, by unfold IsSep; decide, nb [115, 116, 114, 108, 101, 110, 44], nb [32, 32, 119, 114, 105, 116, 101], by decide,
      by unfold IsSep; decide, by unfold IsSep; decide⟩⟩

end Minilib

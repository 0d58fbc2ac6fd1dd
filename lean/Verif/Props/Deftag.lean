import Verif.Spec.Deftag
import Verif.Model.Deftag
/-
C119: tagged functions in the generated header.
-/

set_option autoImplicit false

namespace Minilib

open _root_.Spec

theorem reClose_infix {l : Line} : reClose l = true ↔ [41#8, 123#8] <:+: l := by
  induction l with
  | nil => simp [reClose]
  | cons b r ih =>
    rw [reClose, Bool.or_eq_true, ih, begins, List.isPrefixOf_iff_prefix, List.infix_cons_iff]

theorem reNameAt_none {l : Line} (h : reClose l = false) : reNameAt l = none := by
  induction l with
  | nil => rfl
  | cons b r ih =>
    have hr : reClose r = false := by rw [reClose, Bool.or_eq_false_iff] at h; exact h.2
    rw [reNameAt]
    split
    · rfl
    · rw [ih hr]
      simp [hr]

/-- Where no bracket is opened in front of the last `){`, there is no name. -/
theorem reNameAt_params {p t : Line} (hp : 40#8 ∉ p) (ht : reNameAt t = none) : reNameAt (p ++ t) = none := by
  induction p with
  | nil => exact ht
  | cons b p ih =>
    simp only [List.mem_cons, not_or] at hp
    rw [List.cons_append, reNameAt]
    split
    · rfl
    · rw [ih hp.2]
      simp only
      rw [if_neg (fun e => hp.1 e.1.symm)]

theorem reClose_drop {l : Line} (h : reClose l = false) (q : Byte → Bool) : reClose (l.dropWhile q) = false := by
  cases h' : reClose (l.dropWhile q) with
  | false => rfl
  | true =>
    obtain ⟨x, y, e⟩ := reClose_infix.1 h'
    have : reClose l = true := reClose_infix.2 ⟨l.takeWhile q ++ x, y, by
      rw [List.append_assoc, List.append_assoc, ← List.append_assoc x, e, List.takeWhile_append_dropWhile]⟩
    rw [h] at this; cases this

theorem reDefName_none {l : Line} (h : reClose l = false) : reDefName l = none := by
  induction l with
  | nil => rfl
  | cons b r ih =>
    have hr : reClose r = false := by rw [reClose, Bool.or_eq_false_iff] at h; exact h.2
    rw [reDefName, ih hr]
    simp only
    split
    · exact reNameAt_none (reClose_drop hr _)
    · rfl

theorem dropWhile_append_notin {q : Byte → Bool} : ∀ (p t : Line), ∃ p' t', (p ++ t).dropWhile q = p' ++ t' ∧ p' <:+ p ∧ (t' = t ∨ (p' = [] ∧ t' <:+ t))
  | [], t => ⟨[], t.dropWhile q, rfl, List.suffix_refl _, .inr ⟨rfl, List.dropWhile_suffix _⟩⟩
  | b :: p, t => by
    rw [List.cons_append, List.dropWhile_cons]
    split
    · obtain ⟨p', t', h1, h2, h3⟩ := dropWhile_append_notin (q := q) p t
      exact ⟨p', t', h1, h2.trans (List.suffix_cons _ _), h3⟩
    · exact ⟨b :: p, t, rfl, List.suffix_refl _, .inl rfl⟩

/-- Names in front of the last opened bracket count only. -/
theorem reDefName_params {p t : Line} (hp : 40#8 ∉ p) (ht : ∀ s, s <:+ t → reNameAt s = none) (hd : reDefName t = none) : reDefName (p ++ t) = none := by
  induction p with
  | nil => exact hd
  | cons b p ih =>
    simp only [List.mem_cons, not_or] at hp
    rw [List.cons_append, reDefName, ih hp.2]
    simp only
    split
    · obtain ⟨p', t', h1, h2, h3⟩ := dropWhile_append_notin (q := fun b : Byte => decide (b = 42#8)) p t
      rw [h1]
      refine reNameAt_params (fun h => hp.2 (h2.subset h)) ?_
      rcases h3 with rfl | ⟨_, h⟩
      · exact ht _ (List.suffix_refl _)
      · exact ht _ h
    · rfl

theorem name_space {b : Byte} {n : Line} (hn : NameBytes n) (hb : b ∈ n) : reSpace b = false := by
  obtain ⟨h1, h2, h3, h4, h5, h6, _⟩ := hn b hb
  simp [reSpace, h1, h2, h3, h4, h5, h6]

theorem reNameAt_name {n p : Line} (hn : NameBytes n) (h1 : reNameAt p = none) (h2 : reClose p = true) : reNameAt (n ++ 40#8 :: p) = some n := by
  induction n with
  | nil => rw [List.nil_append, reNameAt, if_neg (by decide), h1]; simp [h2]
  | cons b n ih =>
    rw [List.cons_append, reNameAt, name_space hn (by simp), ih (fun c hc => hn c (by simp [hc]))]
    rfl

theorem reDefName_skip {n t : Line} (hn : 32#8 ∉ n) (h : reDefName t = none) : reDefName (n ++ t) = none := by
  induction n with
  | nil => exact h
  | cons b n ih =>
    simp only [List.mem_cons, not_or] at hn
    rw [List.cons_append, reDefName, ih hn.2]
    simp only
    rw [if_neg (fun e => hn.1 e.symm)]

theorem reDefName_front (t : Line) {l c : Line} (h : reDefName l = some c) : reDefName (t ++ l) = some c := by
  induction t with
  | nil => exact h
  | cons b t ih => rw [List.cons_append, reDefName, ih]

theorem close_none {rest : Line} (hr : ¬ [41#8, 123#8] <:+: rest) : reClose rest = false := by
  cases h : reClose rest with
  | false => rfl
  | true => exact absurd (reClose_infix.1 h) hr

theorem suffix_none {rest : Line} (hr : ¬ [41#8, 123#8] <:+: rest) : ∀ s, s <:+ (41#8 :: 123#8 :: rest) → reNameAt s = none := by
  intro s hs
  have h0 : reNameAt rest = none := reNameAt_none (close_none hr)
  rw [List.suffix_cons_iff, List.suffix_cons_iff] at hs
  rcases hs with rfl | rfl | hs
  · exact reNameAt_params (p := [41#8, 123#8]) (by decide) h0
  · exact reNameAt_params (p := [123#8]) (by decide) h0
  · refine reNameAt_none (close_none fun h => hr ?_)
    obtain ⟨x, y, e⟩ := h
    obtain ⟨w, rfl⟩ := hs
    exact ⟨w ++ x, y, by rw [← e]; simp⟩

/-- The name found in a prototype. -/
theorem reDefName_proto {p : Proto} {rest : Line} (hn : NameBytes p.name) (hp : 40#8 ∉ p.params) (hr : ¬ [41#8, 123#8] <:+: rest) :
    reDefName (p.text ++ 123#8 :: rest) = some p.name := by
  have hs := suffix_none hr
  have hd : reDefName (41#8 :: 123#8 :: rest) = none :=
    reDefName_skip (n := [41#8, 123#8]) (by decide) (reDefName_none (close_none hr))
  have e : p.text ++ 123#8 :: rest = p.type ++ (32#8 :: (List.replicate p.stars 42#8 ++ (p.name ++ 40#8 :: (p.params ++ (41#8 :: 123#8 :: rest))))) := by
    simp [Proto.text]
  rw [e]
  apply reDefName_front
  have h1 : reDefName (p.params ++ (41#8 :: 123#8 :: rest)) = none := reDefName_params hp hs hd
  have h2 : reDefName (List.replicate p.stars 42#8 ++ (p.name ++ 40#8 :: (p.params ++ (41#8 :: 123#8 :: rest)))) = none := by
    refine reDefName_skip (by intro h; rw [List.mem_replicate] at h; exact absurd h.2 (by decide)) ?_
    rw [show p.name ++ 40#8 :: (p.params ++ (41#8 :: 123#8 :: rest)) = (p.name ++ [40#8]) ++ (p.params ++ (41#8 :: 123#8 :: rest)) by simp]
    refine reDefName_skip (fun h => ?_) h1
    rcases List.mem_append.1 h with h | h
    · exact (hn _ h).1 rfl
    · simp at h
  have h3 : (List.replicate p.stars 42#8 ++ (p.name ++ 40#8 :: (p.params ++ (41#8 :: 123#8 :: rest)))).dropWhile (· = 42#8) =
      p.name ++ 40#8 :: (p.params ++ (41#8 :: 123#8 :: rest)) := by
    have : ∀ k (t : Line), t.head? ≠ some 42#8 → (List.replicate k 42#8 ++ t).dropWhile (· = 42#8) = t := by
      intro k t ht
      induction k with
      | zero =>
        cases t with
        | nil => rfl
        | cons b t =>
          rw [List.replicate_zero, List.nil_append, List.dropWhile_cons, if_neg]
          simpa using ht
      | succ k ih => rw [List.replicate_succ, List.cons_append, List.dropWhile_cons, if_pos (by decide)]; exact ih
    apply this
    cases hnm : p.name with
    | nil => simp
    | cons b n =>
      simp only [List.cons_append, List.head?_cons, ne_eq, Option.some.injEq]
      exact (hn b (by rw [hnm]; simp)).2.2.2.2.2.2.1
  rw [reDefName, h2]
  simp only [if_true]
  rw [h3]
  exact reNameAt_name hn (reNameAt_params hp (hs _ (List.suffix_refl _))) (reClose_infix.2 ⟨p.params, rest, by simp⟩)

theorem reBody_proto {x rest : Line} (hx : 123#8 ∉ x) (hr : 10#8 ∉ rest) : reBody (x ++ 123#8 :: (rest ++ [10#8])) = x ++ [59#8, 10#8] := by
  have h1 : (x ++ 123#8 :: (rest ++ [10#8])).takeWhile (· ≠ 123#8) = x := by
    clear hr
    induction x with
    | nil => rfl
    | cons b x ih =>
      simp only [List.mem_cons, not_or] at hx
      rw [List.cons_append, List.takeWhile_cons, if_pos (by simpa using fun e => hx.1 e.symm), ih hx.2]
  have h2 : (x ++ 123#8 :: (rest ++ [10#8])).getLast? = some 10#8 := by
    rw [show x ++ 123#8 :: (rest ++ [10#8]) = (x ++ 123#8 :: rest) ++ [10#8] by simp, List.getLast?_append]; simp
  unfold reBody
  rw [if_pos (by simp), h1, h2]
  simp

/-- C119: a function behind a tag is declared by its prototype, under its name. -/
theorem C119_declared_partial {p : Proto} {tag c rest : Line} (hc : c.length ≤ 1) (hn : NameBytes p.name) (hp : 40#8 ∉ p.params)
    (hb : 123#8 ∉ p.text) (hl : 10#8 ∉ rest) (hr : ¬ [41#8, 123#8] <:+: rest) :
    defTag tag c (p.text ++ 123#8 :: (rest ++ [10#8])) = (p.name, p.text ++ [59#8, 10#8]) := by
  unfold defTag
  rw [if_neg (by omega), reBody_proto hb hl, reDefName_proto hn hp]
  · rfl
  · intro h
    obtain ⟨x, y, e⟩ := h
    rcases List.eq_nil_or_concat y with rfl | ⟨y, z, rfl⟩
    · have := congrArg List.getLast? e
      simp at this
    · rw [List.concat_eq_append, ← List.append_assoc] at e
      exact hr ⟨x, y, (List.append_inj' e rfl).1⟩

/-- C119: with the name in the tag, the function has this name, and the declaration is the prototype, whatever the parameters. -/
theorem C119_named_partial {tag c x rest : Line} (hc : 2 ≤ c.length) (hb : 123#8 ∉ x) (hl : 10#8 ∉ rest) :
    defTag tag c (x ++ 123#8 :: (rest ++ [10#8])) = (c, x ++ [59#8, 10#8]) := by
  unfold defTag
  rw [if_pos (by omega), reBody_proto hb hl]

/-- C119 as a whole, without a name in the tag. -/
def C119_full : Prop := ∀ (p : Proto) (tag rest : Line), NameBytes p.name → 123#8 ∉ p.text → 10#8 ∉ rest →
  defTag tag [] (p.text ++ 123#8 :: (rest ++ [10#8])) = (p.name, p.text ++ [59#8, 10#8]) ∧
  defTag tag [] (p.text ++ 32#8 :: 123#8 :: (rest ++ [10#8])) = (p.name, p.text ++ [32#8, 59#8, 10#8])

/-- `void f(int a, int (*g)(int))`. -/
def protoPtr : Proto := ⟨[118, 111, 105, 100], 0, [102], [105, 110, 116, 32, 97, 44, 32, 105, 110, 116, 32, 40, 42, 103, 41, 40, 105, 110, 116, 41]⟩

/-- C119 fails: with a function as parameter, this one is taken for the name. -/
theorem C119_refuted : ¬ C119_full ∧ (defTag [100, 101, 102] [] (protoPtr.text ++ [123#8, 10#8])).1 = [40, 42, 103, 41] := by
  have h2 : (defTag [100, 101, 102] [] (protoPtr.text ++ [123#8, 10#8])).1 = [40, 42, 103, 41] := by decide +kernel
  refine ⟨fun h => ?_, h2⟩
  have := (h protoPtr [100, 101, 102] [] (by unfold NameBytes; decide +kernel) (by decide +kernel) (by simp)).1
  rw [List.nil_append, show ([123#8, 10#8] : Line) = 123#8 :: [10#8] from rfl] at *
  rw [this] at h2
  exact absurd h2 (by decide +kernel)

/-- C119 fails: with a blank in front of the brace, every function without another `){` in its line is called like the tag. -/
theorem C119_blank_refuted {p : Proto} {tag rest : Line} (h : ¬ [41#8, 123#8] <:+: (p.text ++ 32#8 :: 123#8 :: rest)) :
    (defTag tag [] (p.text ++ 32#8 :: 123#8 :: rest)).1 = tag := by
  unfold defTag
  rw [if_neg (by simp), reDefName_none (close_none h)]
  rfl

/-- C119 fails: a condition in the same line, `int f(int a){ if (a){`, hides the name: the function has none and is left out. -/
theorem C119_body_refuted : (defTag [100, 101, 102] [] [105, 110, 116, 32, 102, 40, 105, 110, 116, 32, 97, 41, 123, 32, 105, 102, 32, 40, 97, 41, 123, 10]).1 = [] := by
  decide +kernel

/-- `char **argv(int a)`. -/
def protoArgv : Proto := ⟨[99, 104, 97, 114], 2, [97, 114, 103, 118], [105, 110, 116, 32, 97]⟩

/-- C119: a function that returns a pointer, with its body. -/
example : defTag [100, 101, 102] [48] (protoArgv.text ++ 123#8 :: ([114, 101, 116, 117, 114, 110, 40, 48, 41, 59, 125] ++ [10#8])) =
    ([97, 114, 103, 118], protoArgv.text ++ [59#8, 10#8]) :=
  C119_declared_partial (p := protoArgv) (by decide) (by unfold NameBytes; decide +kernel) (by decide +kernel) (by decide +kernel) (by decide +kernel) (by decide +kernel)

/-- C119: a function as parameter, with the name in the tag. -/
example : defTag [100, 101, 102] [102, 102] (protoPtr.text ++ 123#8 :: ([] ++ [10#8])) = ([102, 102], protoPtr.text ++ [59#8, 10#8]) :=
  C119_named_partial (by decide) (by decide +kernel) (by simp)

/-- C119: a blank in front of the brace. -/
example : (defTag [100, 101, 102] [] (protoArgv.text ++ 32#8 :: 123#8 :: [10#8])).1 = [100, 101, 102] := C119_blank_refuted (by decide +kernel)

/-! ### macros -/

theorem reCallAt_name {n : Line} (hn : NameBytes n) (t : Line) : reCallAt (n ++ 40#8 :: t) = some n := by
  induction n with
  | nil => rw [List.nil_append, reCallAt, if_pos rfl]
  | cons b n ih =>
    rw [List.cons_append, reCallAt, if_neg (hn b (by simp)).2.2.2.2.2.2.2, name_space hn (by simp), ih (fun c hc => hn c (by simp [hc]))]
    rfl

/-- C119: a macro with parameters, in the line of its tag: its name, and the definition. -/
theorem C119_macro {n t l : Line} (hn : NameBytes n) : macroTag (n ++ 40#8 :: t) l = (n, [35, 100, 101, 102, 105, 110, 101, 32] ++ (n ++ 40#8 :: t)) := by
  have e : reCall (n ++ 40#8 :: t) = some n := by
    have h := reCallAt_name hn t
    cases n with
    | nil => rfl
    | cons b n =>
      rw [List.cons_append] at h ⊢
      rw [reCall, h]
  unfold macroTag
  rw [if_pos (by simp), e]
  rfl

/-- C119: a macro with parameters in the next line, which may be a comment. -/
theorem C119_macro_next {n t x : Line} (hn : NameBytes n) (hx : x = [] ∨ x = [47, 47]) :
    macroTag [] (x ++ [35, 100, 101, 102, 105, 110, 101, 32] ++ n ++ 40#8 :: t) = (n, [35, 100, 101, 102, 105, 110, 101, 32] ++ n ++ 40#8 :: t) := by
  have e : reDefine ([35, 100, 101, 102, 105, 110, 101, 32] ++ n ++ 40#8 :: t) = some n := by
    have h1 : (([35, 100, 101, 102, 105, 110, 101, 32] ++ n ++ 40#8 :: t).drop 7).dropWhile reSpace = n ++ 40#8 :: t := by
      have : ([35, 100, 101, 102, 105, 110, 101, 32] ++ n ++ 40#8 :: t).drop 7 = 32#8 :: (n ++ 40#8 :: t) := by
        show 32#8 :: _ = _
        simp
      rw [this, List.dropWhile_cons, if_pos (by decide)]
      cases n with
      | nil => rw [List.nil_append, List.dropWhile_cons, if_neg (by decide)]
      | cons b n => rw [List.cons_append, List.dropWhile_cons, if_neg (by rw [name_space hn (by simp)]; decide)]
    have h2 : begins [35, 100, 101, 102, 105, 110, 101] ([35, 100, 101, 102, 105, 110, 101, 32] ++ n ++ 40#8 :: t) = true := rfl
    have h3 : [35, 100, 101, 102, 105, 110, 101, 32] ++ n ++ 40#8 :: t = 35#8 :: ([100, 101, 102, 105, 110, 101, 32] ++ n ++ 40#8 :: t) := rfl
    rw [h3] at h1 h2 ⊢
    rw [reDefine, h2, if_pos rfl, h1, reCallAt_name hn]
  unfold macroTag
  rw [if_neg (by simp)]
  rcases hx with rfl | rfl
  · have : begins [47, 47] ([] ++ [35, 100, 101, 102, 105, 110, 101, 32] ++ n ++ 40#8 :: t) = false := rfl
    rw [this]
    simp only [Bool.false_eq_true, if_false, List.nil_append, e]
    rfl
  · have : begins [47, 47] ([47, 47] ++ [35, 100, 101, 102, 105, 110, 101, 32] ++ n ++ 40#8 :: t) = true := rfl
    rw [this]
    have d : ([47, 47] ++ [35, 100, 101, 102, 105, 110, 101, 32] ++ n ++ 40#8 :: t).drop 2 = [35, 100, 101, 102, 105, 110, 101, 32] ++ n ++ 40#8 :: t := rfl
    simp only [if_true, d, e]
    rfl

theorem reCallAt_none {l : Line} (h : 40#8 ∉ l) : reCallAt l = none := by
  induction l with
  | nil => rfl
  | cons b l ih =>
    simp only [List.mem_cons, not_or] at h
    rw [reCallAt, if_neg (fun e => h.1 e.symm), ih h.2]
    split <;> rfl

/-- C119 fails for macros without parameters, as `EOF -1`: they have no name, and are left out. -/
theorem C119_object_refuted {c l : Line} (hc : c ≠ []) (h : 40#8 ∉ c) : (macroTag c l).1 = [] := by
  have : reCall c = none := by
    clear hc
    induction c with
    | nil => rfl
    | cons b c ih =>
      rw [reCall, reCallAt_none h, ih (fun e => h (by simp [e]))]
  unfold macroTag
  rw [if_pos hc, this]
  rfl

/-- C119 fails for macros without parameters whose text has brackets, as `EOF (-1)`: the name is the word in front of the bracket, here none. -/
theorem C119_object_value_refuted {n t l : Line} (hn : NameBytes n) : (macroTag (n ++ 32#8 :: 40#8 :: t) l).1 = [] := by
  have hat : ∀ m : Line, NameBytes m → reCallAt (m ++ 32#8 :: 40#8 :: t) = none := by
    intro m hm
    induction m with
    | nil => rw [List.nil_append, reCallAt, if_neg (by decide), if_pos (by decide)]
    | cons b m ih =>
      rw [List.cons_append, reCallAt, if_neg (hm b (by simp)).2.2.2.2.2.2.2, name_space hm (by simp), ih (fun c hc => hm c (by simp [hc]))]
      rfl
  have : reCall (n ++ 32#8 :: 40#8 :: t) = some [] := by
    induction n with
    | nil => rw [List.nil_append, reCall, reCallAt, if_neg (by decide), if_pos (by decide)]; rfl
    | cons b n ih =>
      have h := hat (b :: n) hn
      rw [List.cons_append] at h ⊢
      rw [reCall, h, ih (fun c hc => hn c (by simp [hc]))]
  unfold macroTag
  rw [if_pos (by simp), this]
  rfl

/-- C119: `max(a,b) a`, in the line of the tag and in the next one; `E 1` and `E (1)`. -/
example : macroTag [109, 97, 120, 40, 97, 44, 98, 41, 32, 97, 10] [] = ([109, 97, 120], [35, 100, 101, 102, 105, 110, 101, 32] ++ [109, 97, 120, 40, 97, 44, 98, 41, 32, 97, 10]) ∧
    (macroTag [] ([47, 47] ++ [35, 100, 101, 102, 105, 110, 101, 32] ++ [109, 97, 120, 40, 97, 41, 10])).1 = [109, 97, 120] ∧
    (macroTag [69, 32, 49] []).1 = [] ∧ (macroTag [69, 32, 40, 49, 41] []).1 = [] :=
  ⟨C119_macro (n := [109, 97, 120]) (by unfold NameBytes; decide +kernel),
    congrArg Prod.fst (C119_macro_next (n := [109, 97, 120]) (x := [47, 47]) (t := [97, 41, 10]) (by unfold NameBytes; decide +kernel) (Or.inr rfl)),
    C119_object_refuted (by decide) (by decide), C119_object_value_refuted (n := [69]) (by unfold NameBytes; decide +kernel)⟩

end Minilib

import Verif.Spec.Dependgen
import Verif.Model.Dependgen
/-
C117: the generated dependencies.
-/

set_option autoImplicit false

namespace Minilib

open _root_.Spec

theorem kind_ifdef (n : Line) : lineKind (gdIfdef ++ n ++ [10#8]) = .cond := rfl
theorem kind_ifndef (n : Line) : lineKind (gdIfndef ++ n ++ [10#8]) = .cond := rfl
theorem kind_define (n : Line) : lineKind (gdDefine ++ n ++ [10#8]) = .other := rfl
theorem kind_endif : lineKind gdEndif = .endif := rfl
theorem kind_note : lineKind gdNote = .other := rfl
theorem kind_empty : lineKind [10#8] = .other := rfl

theorem switchedOn_add {out : List Line} {n m : Line} : SwitchedOn (out ++ [defLine n]) m ↔ SwitchedOn out m ∨ m = n := by
  unfold SwitchedOn
  rw [List.mem_append, List.mem_singleton]
  refine or_congr_right ⟨fun h => ?_, fun h => by rw [h]⟩
  simpa [defLine, switchOf] using h

theorem switchedOn_note {out : List Line} {l : Line} (hl : l = gdNote ∨ l = [10#8]) (m : Line) : SwitchedOn (out ++ [l]) m ↔ SwitchedOn out m := by
  unfold SwitchedOn
  rw [List.mem_append, List.mem_singleton]
  refine ⟨fun h => h.elim id fun h => ?_, .inl⟩
  rcases hl with rfl | rfl <;> simp [defLine, gdNote] at h

variable {ev : List Line → Line → Bool} {dep : Line → List Line}

/-- The lines for the names depended on, when the function is on. -/
theorem pre_on (hev : TestsSwitches ev) : ∀ (ns : List Line) (out : List Line) (rest : List Line),
    ∃ out', preproc ev out [⟨true, true, false⟩] (ns.flatMap gdOn ++ rest) = preproc ev out' [⟨true, true, false⟩] rest ∧
      ∀ m, SwitchedOn out' m ↔ SwitchedOn out m ∨ m ∈ ns
  | [], out, rest => ⟨out, rfl, fun m => by simp⟩
  | n :: ns, out, rest => by
    have hc := (hev out n).2
    have e : (n :: ns).flatMap gdOn ++ rest = (gdIfndef ++ n ++ [10#8]) :: (gdDefine ++ n ++ [10#8]) :: gdEndif :: (ns.flatMap gdOn ++ rest) := by
      simp [gdOn]
    have e1 : [35, 105, 102, 110, 100, 101, 102, 32] ++ switchOf n = gdIfndef ++ n ++ [10#8] := rfl
    have e2 : gdDefine ++ n ++ [10#8] = defLine n := rfl
    rw [e1] at hc
    rw [e, preproc, kind_ifndef]
    simp only
    rw [preproc, kind_define]
    simp only
    rw [preproc, kind_endif]
    simp only
    by_cases hon : SwitchedOn out n
    · have hf : ev out (gdIfndef ++ n ++ [10#8]) = false := by
        cases h : ev out (gdIfndef ++ n ++ [10#8]) with
        | false => rfl
        | true => exact absurd hon (hc.1 h)
      rw [hf]
      simp only [List.all_cons, List.all_nil, Bool.and_false, Bool.and_true]
      obtain ⟨out', h1, h2⟩ := pre_on hev ns out rest
      refine ⟨out', h1, fun m => ?_⟩
      rw [h2, List.mem_cons]
      constructor
      · rintro (h | h)
        · exact .inl h
        · exact .inr (.inr h)
      · rintro (h | rfl | h)
        · exact .inl h
        · exact .inl hon
        · exact .inr h
    · rw [hc.2 hon]
      simp only [List.all_cons, List.all_nil, Bool.and_true]
      rw [e2]
      obtain ⟨out', h1, h2⟩ := pre_on hev ns (out ++ [defLine n]) rest
      refine ⟨out', h1, fun m => ?_⟩
      rw [h2, switchedOn_add, List.mem_cons, or_assoc]

/-- The lines for the names depended on, when the function is off. -/
theorem pre_off : ∀ (ns : List Line) (out : List Line) (rest : List Line),
    preproc ev out [⟨false, false, false⟩] (ns.flatMap gdOn ++ rest) = preproc ev out [⟨false, false, false⟩] rest
  | [], _, _ => rfl
  | n :: ns, out, rest => by
    have e : (n :: ns).flatMap gdOn ++ rest = (gdIfndef ++ n ++ [10#8]) :: (gdDefine ++ n ++ [10#8]) :: gdEndif :: (ns.flatMap gdOn ++ rest) := by
      simp [gdOn]
    rw [e, preproc, kind_ifndef]
    simp only
    rw [preproc, kind_define]
    simp only
    rw [preproc, kind_endif]
    simp only [List.all_cons, Bool.false_and]
    exact pre_off ns out rest

/-- The lines of one function. -/
theorem pre_one (hev : TestsSwitches ev) (d : Line) (out rest : List Line) :
    ∃ out', preproc ev out [] (printdepend dep d ++ rest) = preproc ev out' [] rest ∧
      ∀ m, SwitchedOn out' m ↔ SwitchedOn out m ∨ (SwitchedOn out d ∧ m ∈ dep d) := by
  have hc := (hev (out ++ [[10#8]]) d).1
  rw [show [35, 105, 102, 100, 101, 102, 32] ++ switchOf d = gdIfdef ++ d ++ [10#8] from rfl, switchedOn_note (.inr rfl)] at hc
  have e : printdepend dep d ++ rest = [10#8] :: (gdIfdef ++ d ++ [10#8]) :: gdNote :: ((dep d).flatMap gdOn ++ (gdEndif :: rest)) := by
    simp [printdepend]
  rw [e, preproc, kind_empty]
  simp only [List.all_nil, if_true]
  rw [preproc, kind_ifdef]
  simp only [List.all_nil, Bool.true_and]
  by_cases hon : SwitchedOn out d
  · rw [hc.2 hon, preproc, kind_note]
    simp only [List.all_cons, List.all_nil, Bool.and_true, if_true]
    obtain ⟨out', h1, h2⟩ := pre_on hev (dep d) (out ++ [[10#8]] ++ [gdNote]) (gdEndif :: rest)
    rw [h1, preproc, kind_endif]
    refine ⟨out', rfl, fun m => ?_⟩
    rw [h2, switchedOn_note (.inl rfl), switchedOn_note (.inr rfl)]
    exact or_congr_right ⟨fun h => ⟨hon, h⟩, fun h => h.2⟩
  · have hf : ev (out ++ [[10#8]]) (gdIfdef ++ d ++ [10#8]) = false := by
      cases h : ev (out ++ [[10#8]]) (gdIfdef ++ d ++ [10#8]) with
      | false => rfl
      | true => exact absurd (hc.1 h) hon
    rw [hf, preproc, kind_note]
    simp only [List.all_cons, Bool.false_and]
    rw [if_neg (by decide), pre_off, preproc, kind_endif]
    refine ⟨out ++ [[10#8]], rfl, fun m => ?_⟩
    rw [switchedOn_note (.inr rfl)]
    exact ⟨.inl, fun h => h.elim id fun h => absurd h.1 hon⟩

/-- The lines of a sequence of functions. -/
theorem pre_keys (hev : TestsSwitches ev) : ∀ (ks : List Line) (out rest : List Line),
    ∃ out', preproc ev out [] (ks.flatMap (printdepend dep) ++ rest) = preproc ev out' [] rest ∧
      ∀ m, SwitchedOn out' m ↔ ∃ f, SwitchedOn out f ∧ InOrder dep ks f m
  | [], out, rest => ⟨out, rfl, fun m => ⟨fun h => ⟨m, h, .self _ _⟩, fun ⟨f, h1, h2⟩ => by cases h2; exact h1⟩⟩
  | k :: ks, out, rest => by
    rw [List.flatMap_cons, List.append_assoc]
    obtain ⟨o1, h1, h2⟩ := pre_one (dep := dep) hev k out (ks.flatMap (printdepend dep) ++ rest)
    obtain ⟨o2, h3, h4⟩ := pre_keys hev ks o1 rest
    refine ⟨o2, h1.trans h3, fun m => ?_⟩
    rw [h4]
    constructor
    · rintro ⟨f, h, hi⟩
      rcases (h2 f).1 h with h | ⟨h, hf⟩
      · exact ⟨f, h, .skip hi⟩
      · exact ⟨k, h, .take hf hi⟩
    · rintro ⟨f, h, hi⟩
      cases hi with
      | self => exact ⟨m, (h2 m).2 (.inl h), .self _ _⟩
      | skip hi => exact ⟨f, (h2 f).2 (.inl h), hi⟩
      | take hg hi => exact ⟨_, (h2 _).2 (.inr ⟨h, hg⟩), hi⟩

/-- C117: what the generated part switches on, exactly, for any dependencies and any order of the keys. -/
theorem C117_exact (hev : TestsSwitches ev) (keys out : List Line) :
    ∃ out', preproc ev out [] (dependText dep keys) = some out' ∧
      ∀ n, SwitchedOn out' n ↔ ∃ f, SwitchedOn out f ∧ InOrder dep (keys ++ keys) f n := by
  obtain ⟨out', h1, h2⟩ := pre_keys (dep := dep) hev (keys ++ keys) out []
  refine ⟨out', ?_, h2⟩
  rw [List.append_nil, List.flatMap_append] at h1
  unfold dependText
  rw [h1]; rfl

theorem inOrder_append {a b : List Line} {f n : Line} : InOrder dep (a ++ b) f n ↔ ∃ g, InOrder dep a f g ∧ InOrder dep b g n := by
  induction a generalizing f with
  | nil => exact ⟨fun h => ⟨f, .self _ _, h⟩, fun ⟨g, h1, h2⟩ => by cases h1; exact h2⟩
  | cons k a ih =>
    constructor
    · intro h
      rw [List.cons_append] at h
      cases h with
      | self => exact ⟨n, .self _ _, .self _ _⟩
      | skip h => obtain ⟨g, h1, h2⟩ := ih.1 h; exact ⟨g, .skip h1, h2⟩
      | take hg h => obtain ⟨g, h1, h2⟩ := ih.1 h; exact ⟨g, .take hg h1, h2⟩
    · rintro ⟨g, h1, h2⟩
      rw [List.cons_append]
      cases h1 with
      | self =>
        have := ih.2 ⟨f, .self _ _, h2⟩
        exact .skip this
      | skip h => exact .skip (ih.2 ⟨g, h, h2⟩)
      | take hg h => exact .take hg (ih.2 ⟨g, h, h2⟩)

theorem inOrder_one {ks : List Line} {f n : Line} (hf : f ∈ ks) (hn : n ∈ dep f) : InOrder dep ks f n := by
  induction ks with
  | nil => simp at hf
  | cons k ks ih =>
    by_cases e : f = k
    · subst e; exact .take hn (.self _ _)
    · exact .skip (ih (by simpa [e] using hf))

theorem inOrder_requires {ks keys : List Line} {f n : Line} (hs : ∀ k ∈ ks, k ∈ keys) (h : InOrder dep ks f n) : ∃ k, Requires dep keys k f n := by
  induction h with
  | self => exact ⟨0, .self _⟩
  | skip _ ih => exact ih (fun k hk => hs k (by simp [hk]))
  | take hg _ ih =>
    obtain ⟨k, h⟩ := ih (fun k hk => hs k (by simp [hk]))
    exact ⟨k + 1, .step (hs _ (by simp)) hg h⟩

/-- C117: whatever is switched on is required by something that was. -/
theorem C117_only (hev : TestsSwitches ev) (keys out : List Line) :
    ∃ out', preproc ev out [] (dependText dep keys) = some out' ∧
      ∀ n, SwitchedOn out' n → ∃ f k, SwitchedOn out f ∧ Requires dep keys k f n := by
  obtain ⟨out', h1, h2⟩ := C117_exact (dep := dep) hev keys out
  refine ⟨out', h1, fun n hn => ?_⟩
  obtain ⟨f, hf, h⟩ := (h2 n).1 hn
  obtain ⟨k, hk⟩ := inOrder_requires (keys := keys) (by simp) h
  exact ⟨f, k, hf, hk⟩

/-- C117: in any order of the keys, everything up to two steps away is switched on. -/
theorem C117_two_partial (hev : TestsSwitches ev) (keys out : List Line) :
    ∃ out', preproc ev out [] (dependText dep keys) = some out' ∧
      ∀ f n k, SwitchedOn out f → k ≤ 2 → Requires dep keys k f n → SwitchedOn out' n := by
  obtain ⟨out', h1, h2⟩ := C117_exact (dep := dep) hev keys out
  refine ⟨out', h1, fun f n k hf hk hr => (h2 n).2 ⟨f, hf, ?_⟩⟩
  cases hr with
  | self => exact .self _ _
  | step a1 b1 r =>
    cases r with
    | self => exact inOrder_one (by simp [a1]) b1
    | step a2 b2 r =>
      cases r with
      | self => exact inOrder_append.2 ⟨_, inOrder_one a1 b1, inOrder_one a2 b2⟩
      | step => omega

/-- C117: when the functions come in front of what they depend on, everything required is switched on. -/
theorem C117_sorted_partial (hev : TestsSwitches ev) (keys out : List Line)
    (hs : ∀ a d b, keys = a ++ d :: b → ∀ g ∈ dep d, g ∈ keys → g ∈ b) :
    ∃ out', preproc ev out [] (dependText dep keys) = some out' ∧
      ∀ f n k, SwitchedOn out f → Requires dep keys k f n → SwitchedOn out' n := by
  obtain ⟨out', h1, h2⟩ := C117_exact (dep := dep) hev keys out
  refine ⟨out', h1, fun f n k hf hr => (h2 n).2 ⟨f, hf, inOrder_append.2 ⟨n, ?_, .self _ _⟩⟩⟩
  -- every tail of the keys that has `f` leads to `n`
  have key : ∀ (k : Nat) (f : Line), Requires dep keys k f n → ∀ a b, keys = a ++ b → (f ∈ keys → f ∈ b) → InOrder dep b f n := by
    intro k
    induction k with
    | zero => intro f hr a b _ _; cases hr; exact .self _ _
    | succ k ih =>
      intro f hr a b hab hfb
      cases hr with
      | step hm hg hr =>
        rename_i g
        obtain ⟨x, y, hxy⟩ := List.append_of_mem (hfb hm)
        subst hxy
        have hk : keys = (a ++ x) ++ f :: y := by rw [hab]; simp
        have hin := ih g hr (a ++ x ++ [f]) y (by rw [hk]; simp) (fun h => hs _ _ _ hk g hg h)
        exact inOrder_append.2 ⟨f, .self _ _, .take hg hin⟩
  exact key k f hr [] keys rfl id

/-- C117 as a whole: everything required is switched on. -/
def C117_full : Prop := ∀ (ev : List Line → Line → Bool) (dep : Line → List Line) (keys out : List Line), TestsSwitches ev →
  ∃ out', preproc ev out [] (dependText dep keys) = some out' ∧ ∀ f n k, SwitchedOn out f → Requires dep keys k f n → SwitchedOn out' n

/-- A name of `n` letters. -/
def nameOf (n : Nat) : Line := List.replicate n 97#8

theorem nameOf_inj {a b : Nat} (h : nameOf a = nameOf b) : a = b := by
  have := congrArg List.length h
  simpa [nameOf] using this

/-- Every name depends on the one with a letter more. -/
def chainDep (l : Line) : List Line := [l ++ [97#8]]

theorem chainDep_name (n : Nat) : chainDep (nameOf n) = [nameOf (n + 1)] := by
  simp [chainDep, nameOf, List.replicate_succ']

/-- The keys `n-1, …, 1, 0`. -/
def downKeys : Nat → List Line
  | 0 => []
  | n + 1 => nameOf n :: downKeys n

theorem mem_down {n : Nat} {l : Line} (h : l ∈ downKeys n) : ∃ i < n, l = nameOf i := by
  induction n with
  | zero => simp [downKeys] at h
  | succ n ih =>
    rw [downKeys, List.mem_cons] at h
    rcases h with rfl | h
    · exact ⟨n, by omega, rfl⟩
    · obtain ⟨i, hi, e⟩ := ih h; exact ⟨i, by omega, e⟩

theorem down_mem {n i : Nat} (h : i < n) : nameOf i ∈ downKeys n := by
  induction n with
  | zero => omega
  | succ n ih =>
    rw [downKeys, List.mem_cons]
    by_cases e : i = n
    · left; rw [e]
    · right; exact ih (by omega)

theorem chain_requires (N : Nat) : ∀ (k i : Nat), i + k ≤ N → Requires chainDep (downKeys N) k (nameOf i) (nameOf (i + k))
  | 0, _, _ => .self _
  | k + 1, i, h => by
    have := chain_requires N k (i + 1) (by omega)
    rw [show i + 1 + k = i + (k + 1) by omega] at this
    exact .step (down_mem (by omega)) (by rw [chainDep_name]; simp) this

theorem stuck {n i : Nat} {l : Line} (hi : n ≤ i) (h : InOrder chainDep (downKeys n) (nameOf i) l) : l = nameOf i := by
  induction n with
  | zero => cases h; rfl
  | succ n ih =>
    rw [downKeys] at h
    generalize hx : nameOf i = x at h
    cases h with
    | self => rfl
    | skip h => subst hx; exact ih (by omega) h
    | take hg h => have := nameOf_inj hx; omega

theorem one_step {n i : Nat} {l : Line} (h : InOrder chainDep (downKeys n) (nameOf i) l) : ∃ j, j ≤ i + 1 ∧ l = nameOf j := by
  induction n with
  | zero => cases h; exact ⟨i, by omega, rfl⟩
  | succ n ih =>
    rw [downKeys] at h
    generalize hx : nameOf i = x at h
    cases h with
    | self => exact ⟨i, by omega, hx.symm⟩
    | skip h => subst hx; exact ih h
    | take hg h =>
      have := nameOf_inj hx
      subst this
      rw [chainDep_name, List.mem_singleton] at hg
      subst hg
      exact ⟨i + 1, by omega, stuck (by omega) h⟩

theorem many_steps {N : Nat} : ∀ (p i : Nat) {l : Line}, InOrder chainDep (List.replicate p (downKeys N)).flatten (nameOf i) l → ∃ j, j ≤ i + p ∧ l = nameOf j
  | 0, i, l, h => by cases h; exact ⟨i, by omega, rfl⟩
  | p + 1, i, l, h => by
    rw [List.replicate_succ, List.flatten_cons, inOrder_append] at h
    obtain ⟨g, h1, h2⟩ := h
    obtain ⟨j, hj, rfl⟩ := one_step h1
    obtain ⟨j', hj', e⟩ := many_steps p j h2
    exact ⟨j', by omega, e⟩

/-- C117 fails for any number of passes: a chain one longer is not covered, in the wrong order of the keys. -/
theorem C117_passes_refuted (hev : TestsSwitches ev) (p : Nat) : ∃ out', preproc ev [defLine (nameOf 0)] []
      ((List.replicate p ((downKeys (p + 1)).flatMap (printdepend chainDep))).flatten) = some out' ∧
    Requires chainDep (downKeys (p + 1)) (p + 1) (nameOf 0) (nameOf (p + 1)) ∧ ¬ SwitchedOn out' (nameOf (p + 1)) := by
  obtain ⟨out', h1, h2⟩ := pre_keys (dep := chainDep) hev (List.replicate p (downKeys (p + 1))).flatten [defLine (nameOf 0)] []
  have e : (List.replicate p (downKeys (p + 1))).flatten.flatMap (printdepend chainDep) =
      (List.replicate p ((downKeys (p + 1)).flatMap (printdepend chainDep))).flatten := by
    clear h1 h2
    generalize downKeys (p + 1) = K
    induction p with
    | zero => rfl
    | succ p ih => rw [List.replicate_succ, List.flatten_cons, List.flatMap_append, ih, List.replicate_succ, List.flatten_cons]
  rw [List.append_nil, e] at h1
  have hr := chain_requires (p + 1) (p + 1) 0 (by omega)
  rw [Nat.zero_add] at hr
  refine ⟨out', h1, hr, fun hn => ?_⟩
  obtain ⟨f, hf, hi⟩ := (h2 _).1 hn
  have : f = nameOf 0 := by
    unfold SwitchedOn at hf
    rw [List.mem_singleton] at hf
    simpa [defLine, switchOf] using hf
  subst this
  obtain ⟨j, hj, e⟩ := many_steps p 0 hi
  have := nameOf_inj e
  omega

/-- Conditions on switches. -/
def switchTest (out : List Line) (l : Line) : Bool :=
  if begins [35, 105, 102, 100, 101, 102, 32] l then out.contains ([35, 100, 101, 102, 105, 110, 101, 32] ++ l.drop 7)
  else if begins [35, 105, 102, 110, 100, 101, 102, 32] l then !out.contains ([35, 100, 101, 102, 105, 110, 101, 32] ++ l.drop 8)
  else false

theorem switchTest_ok : TestsSwitches switchTest := by
  intro out n
  constructor
  · unfold switchTest SwitchedOn defLine
    rw [if_pos (by simp [begins, List.isPrefixOf])]
    simp
  · unfold switchTest SwitchedOn defLine
    rw [if_neg (by simp [begins, List.isPrefixOf]), if_pos (by simp [begins, List.isPrefixOf])]
    simp

/-- C117 fails: with two passes, a chain of three dependencies. -/
theorem C117_refuted : ¬ C117_full := by
  intro h
  obtain ⟨o1, a1, a2⟩ := h switchTest chainDep (downKeys 3) [defLine (nameOf 0)] switchTest_ok
  obtain ⟨o2, b1, b2, b3⟩ := C117_passes_refuted switchTest_ok 2
  have e : (List.replicate 2 ((downKeys (2 + 1)).flatMap (printdepend chainDep))).flatten = dependText chainDep (downKeys 3) := by
    simp [dependText, List.replicate_succ]
  rw [e, a1] at b1
  cases b1
  exact b3 (a2 _ _ _ (by unfold SwitchedOn; simp) b2)

/-- C117: the outcome depends on the order of the keys: in the other order the same functions are covered. -/
theorem C117_order_refuted : ∃ (dep : Line → List Line) (k1 k2 out o1 o2 : List Line) (n : Line), k1.Perm k2 ∧
    preproc switchTest out [] (dependText dep k1) = some o1 ∧ preproc switchTest out [] (dependText dep k2) = some o2 ∧
    SwitchedOn o1 n ∧ ¬ SwitchedOn o2 n := by
  obtain ⟨o1, a1, a2⟩ := C117_exact (dep := chainDep) switchTest_ok (downKeys 3).reverse [defLine (nameOf 0)]
  obtain ⟨o2, b1, b2, b3⟩ := C117_passes_refuted switchTest_ok 2
  have e : (List.replicate 2 ((downKeys (2 + 1)).flatMap (printdepend chainDep))).flatten = dependText chainDep (downKeys 3) := by
    simp [dependText, List.replicate_succ]
  rw [e] at b1
  refine ⟨chainDep, (downKeys 3).reverse, downKeys 3, _, o1, o2, nameOf 3, List.reverse_perm _, a1, b1, (a2 _).2 ⟨nameOf 0, by unfold SwitchedOn; simp, ?_⟩, b3⟩
  refine inOrder_append.2 ⟨nameOf 3, ?_, .self _ _⟩
  rw [show (downKeys 3).reverse = [nameOf 0, nameOf 1, nameOf 2] from rfl]
  exact .take (by rw [chainDep_name]; simp) (.take (by rw [chainDep_name]; simp) (.take (by rw [chainDep_name]; simp) (.self _ _)))

/-- C117: in the right order, `a` and `aa` and `aaa`. -/
example : ∃ out', preproc switchTest [defLine (nameOf 1)] [] (dependText chainDep [nameOf 1, nameOf 2, nameOf 3]) = some out' ∧
    SwitchedOn out' (nameOf 4) := by
  obtain ⟨out', h1, h2⟩ := C117_sorted_partial (dep := chainDep) switchTest_ok [nameOf 1, nameOf 2, nameOf 3] [defLine (nameOf 1)] (by
    intro a d b h g hg hm
    have hl : a.length + b.length = 2 := by have := congrArg List.length h; simp at this; omega
    match a, b, hl with
    | [], b, _ => simp at h; obtain ⟨rfl, rfl⟩ := h; rw [chainDep_name] at hg; simp at hg; simp [hg]
    | [x], b, _ => simp at h; obtain ⟨rfl, rfl, rfl⟩ := h; rw [chainDep_name] at hg; simp at hg; simp [hg]
    | [x, y], b, _ =>
      simp at h; obtain ⟨rfl, rfl, rfl, rfl⟩ := h; rw [chainDep_name] at hg; simp at hg; subst hg
      exact absurd hm (by decide)
    | _ :: _ :: _ :: _, b, h => simp at h; omega)
  exact ⟨out', h1, h2 (nameOf 1) (nameOf 4) 3 (by unfold SwitchedOn; simp)
    (.step (g := nameOf 2) (by simp) (by rw [chainDep_name]; simp) (.step (g := nameOf 3) (by simp) (by rw [chainDep_name]; simp) (.step (g := nameOf 4) (by simp) (by rw [chainDep_name]; simp) (.self _))))⟩

/-- C117: two steps in the wrong order. -/
example : ∃ out', preproc switchTest [defLine (nameOf 0)] [] (dependText chainDep (downKeys 2)) = some out' ∧ SwitchedOn out' (nameOf 2) := by
  obtain ⟨out', h1, h2⟩ := C117_two_partial (dep := chainDep) switchTest_ok (downKeys 2) [defLine (nameOf 0)]
  exact ⟨out', h1, h2 (nameOf 0) (nameOf 2) 2 (by unfold SwitchedOn; simp) (by omega) (by have := chain_requires 2 2 0 (by omega); simpa using this)⟩

end Minilib

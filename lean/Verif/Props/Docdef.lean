import Verif.Spec.Docdef
import Verif.Model.Docdef
/-
C122: declarations in the documentation.
-/

set_option autoImplicit false

namespace Minilib

open _root_.Spec

theorem begins_iff {k l : Line} : begins k l = true ↔ k <+: l := by rw [begins, List.isPrefixOf_iff_prefix]

theorem begins_no {k l : Line} (h : ¬ k <+: l) : begins k l = false := by
  cases h' : begins k l with
  | false => rfl
  | true => exact absurd (begins_iff.1 h') h

/-- A byte that begins none of the words stays. -/
theorem docStrip_keep {b : Byte} {r : Line} (h1 : ¬ [115, 116, 97, 116, 105, 99] <+: b :: r) (h2 : ¬ [105, 110, 108, 105, 110, 101] <+: b :: r) (h3 : ¬ [118, 111, 108, 97, 116, 105, 108, 101] <+: b :: r) (h4 : ¬ [95, 95, 97, 116, 116, 114, 105, 98, 117, 116, 101, 95, 95, 40] <+: b :: r) :
    docStrip (b :: r) = b :: docStrip r := by
  rw [docStrip, begins_no h1, begins_no h2, begins_no h3]
  simp only [Bool.false_eq_true, if_false]
  have : reAttr (b :: r) = none := by unfold reAttr; rw [if_neg (fun e => h4 (begins_iff.1 e.1))]
  split
  · rename_i t h; rw [this] at h; cases h
  · rfl

theorem prefix_blank {k s t : Line} (hk : 32#8 ∉ k) (h : k <+: s ++ 32#8 :: t) : k <+: s := by
  obtain ⟨u, e⟩ := h
  rcases List.append_eq_append_iff.1 e with ⟨x, h1, _⟩ | ⟨x, h1, h2⟩
  · exact ⟨x, h1.symm⟩
  · cases x with
    | nil => rw [List.append_nil] at h1; rw [h1]; exact List.prefix_refl _
    | cons y x =>
      rw [List.cons_append, List.cons.injEq] at h2
      exact absurd (by rw [h1, ← h2.1]; simp) hk

theorem noSpec_cons {b : Byte} {w : Line} (h : NoSpec (b :: w)) : NoSpec w :=
  ⟨fun e => h.1 (e.trans (List.suffix_cons _ _).isInfix), fun e => h.2.1 (e.trans (List.suffix_cons _ _).isInfix),
    fun e => h.2.2.1 (e.trans (List.suffix_cons _ _).isInfix), fun e => h.2.2.2 (e.trans (List.suffix_cons _ _).isInfix)⟩

theorem docStrip_last {w : Line} (h : NoSpec w) : docStrip w = w := by
  induction w with
  | nil => rw [docStrip]
  | cons b w ih =>
    rw [docStrip_keep (fun e => h.1 e.isInfix) (fun e => h.2.1 e.isInfix) (fun e => h.2.2.1 e.isInfix) (fun e => h.2.2.2 e.isInfix), ih (noSpec_cons h)]

theorem docStrip_blank (t : Line) : docStrip (32#8 :: t) = 32#8 :: docStrip t := by
  apply docStrip_keep <;>
  · rintro ⟨u, e⟩
    have := congrArg List.head? e
    simp at this

theorem docStrip_word {w : Line} (h : NoSpec w) (t : Line) : docStrip (w ++ 32#8 :: t) = w ++ 32#8 :: docStrip t := by
  induction w with
  | nil => exact docStrip_blank t
  | cons b w ih =>
    have hb : ∀ k : Line, 32#8 ∉ k → k <+: b :: (w ++ 32#8 :: t) → k <:+: b :: w := fun k hk hp => (prefix_blank (s := b :: w) hk hp).isInfix
    rw [List.cons_append, docStrip_keep (fun e => h.1 (hb _ (by decide) e)) (fun e => h.2.1 (hb _ (by decide) e))
      (fun e => h.2.2.1 (hb _ (by decide) e)) (fun e => h.2.2.2 (hb _ (by decide) e)), ih (noSpec_cons h)]
    rfl

theorem docStrip_static (t : Line) : docStrip ([115, 116, 97, 116, 105, 99] ++ t) = docStrip t := by
  show docStrip (115#8 :: ([116, 97, 116, 105, 99] ++ t)) = _
  rw [docStrip, if_pos (by simp [begins])]
  rfl

theorem docStrip_inline (t : Line) : docStrip ([105, 110, 108, 105, 110, 101] ++ t) = docStrip t := by
  show docStrip (105#8 :: ([110, 108, 105, 110, 101] ++ t)) = _
  rw [docStrip, if_neg (by simp [begins]), if_pos (by simp [begins])]
  rfl

theorem docStrip_volatile (t : Line) : docStrip ([118, 111, 108, 97, 116, 105, 108, 101] ++ t) = docStrip t := by
  show docStrip (118#8 :: ([111, 108, 97, 116, 105, 108, 101] ++ t)) = _
  rw [docStrip, if_neg (by simp [begins]), if_neg (by simp [begins]), if_pos (by simp [begins])]
  rfl

/-- An attribute is taken away up to its first closing bracket. -/
theorem docStrip_attr {x : Line} (hx : 41#8 ∉ x) (hn : 10#8 ∉ x) (t : Line) : docStrip ([95, 95, 97, 116, 116, 114, 105, 98, 117, 116, 101, 95, 95, 40] ++ x ++ 41#8 :: t) = docStrip t := by
  have hA : reAttr ([95, 95, 97, 116, 116, 114, 105, 98, 117, 116, 101, 95, 95, 40] ++ x ++ 41#8 :: t) = some t := by
    have d : ([95, 95, 97, 116, 116, 114, 105, 98, 117, 116, 101, 95, 95, 40] ++ x ++ 41#8 :: t).drop 14 = x ++ 41#8 :: t := rfl
    unfold reAttr
    rw [d]
    have c1 : ((x ++ 41#8 :: t).takeWhile (· ≠ 10#8)).contains 41#8 = true := by
      clear hx d
      induction x with
      | nil => simp
      | cons b x ih =>
        simp only [List.mem_cons, not_or] at hn
        rw [List.cons_append, List.takeWhile_cons, if_pos (by simpa using fun e => hn.1 e.symm)]
        have := ih hn.2
        simp only [List.contains_cons, this, Bool.or_true]
    have c2 : (x ++ 41#8 :: t).dropWhile (· ≠ 41#8) = 41#8 :: t := by
      clear hn d c1
      induction x with
      | nil => rfl
      | cons b x ih =>
        simp only [List.mem_cons, not_or] at hx
        rw [List.cons_append, List.dropWhile_cons, if_pos (by simpa using fun e => hx.1 e.symm), ih hx.2]
    rw [if_pos ⟨begins_iff.2 ⟨x ++ 41#8 :: t, by simp⟩, c1⟩, c2]
    rfl
  obtain ⟨r, hr⟩ : ∃ r, [95, 95, 97, 116, 116, 114, 105, 98, 117, 116, 101, 95, 95, 40] ++ x ++ 41#8 :: t = 95#8 :: r := ⟨_, rfl⟩
  rw [hr] at hA ⊢
  have n : ∀ k : Line, k.head? ≠ some 95#8 → k ≠ [] → ¬ k <+: 95#8 :: r := by
    rintro k hk hne ⟨u, e⟩
    cases k with
    | nil => exact hne rfl
    | cons c k =>
      have := congrArg List.head? e
      simp at this
      exact hk (by simp [this])
  rw [docStrip, begins_no (n _ (by decide) (by decide)), begins_no (n _ (by decide) (by decide)), begins_no (n _ (by decide) (by decide))]
  simp only [Bool.false_eq_true, if_false]
  split
  · rename_i t' h; rw [hA] at h; cases h; rfl
  · rename_i h; rw [hA] at h; cases h

/-- C122 (partial: no bracket inside of an attribute, and none of the words inside of a name): a declaration is shown without static, inline, volatile
and attributes, all the rest as it is. -/
theorem C122_shown_partial {ps : List DeclPart} {last : Line} (hp : ∀ p ∈ ps, p.Fair) (ha : ∀ x, .attr x ∈ ps → 41#8 ∉ x) (hl : NoSpec last) :
    docStrip (declText ps last) = declShown ps last := by
  induction ps with
  | nil => exact docStrip_last hl
  | cons p ps ih =>
    have ih' := ih (fun q hq => hp q (by simp [hq])) (fun x hx => ha x (by simp [hx]))
    have e1 : declText (p :: ps) last = p.text ++ 32#8 :: declText ps last := by simp [declText]
    have e2 : declShown (p :: ps) last = p.shown ++ 32#8 :: declShown ps last := by simp [declShown]
    rw [e1, e2]
    cases p with
    | word w => rw [DeclPart.text, docStrip_word (hp (.word w) (by simp)), ih']; rfl
    | static => rw [DeclPart.text, docStrip_static, docStrip_blank, ih']; rfl
    | inline => rw [DeclPart.text, docStrip_inline, docStrip_blank, ih']; rfl
    | volatile => rw [DeclPart.text, docStrip_volatile, docStrip_blank, ih']; rfl
    | attr x =>
      have := docStrip_attr (ha x (by simp)) (hp (.attr x) (by simp)) (32#8 :: declText ps last)
      rw [DeclPart.text, List.append_assoc _ [41#8], List.singleton_append, this, docStrip_blank, ih']; rfl

/-- C122, full statement: for all attributes. -/
def C122_full : Prop := ∀ (ps : List DeclPart) (last : Line), (∀ p ∈ ps, p.Fair) → NoSpec last → docStrip (declText ps last) = declShown ps last

/-- C122 fails: attributes are written with two brackets, the second one of which stays. -/
theorem C122_bracket_refuted {x last : Line} (hx : 41#8 ∉ x) (hn : 10#8 ∉ x) (hl : NoSpec last) :
    docStrip (declText [.attr (40#8 :: (x ++ [41#8]))] last) = 41#8 :: 32#8 :: last := by
  have e : declText [.attr (40#8 :: (x ++ [41#8]))] last = [95, 95, 97, 116, 116, 114, 105, 98, 117, 116, 101, 95, 95, 40] ++ (40#8 :: x) ++ 41#8 :: (41#8 :: 32#8 :: last) := by simp [declText, DeclPart.text]
  rw [e, docStrip_attr (by simpa using hx) (by simpa using hn), docStrip_keep, docStrip_blank, docStrip_last hl]
  all_goals
    rintro ⟨u, e⟩
    have := congrArg List.head? e
    simp at this

theorem C122_refuted : ¬ C122_full := by
  intro h
  have h1 := h [.attr (40#8 :: ([97] ++ [41#8]))] [] (by intro p hp; rw [List.mem_singleton.1 hp]; show 10#8 ∉ _; decide) (by unfold NoSpec; decide)
  rw [C122_bracket_refuted (by decide) (by decide) (by unfold NoSpec; decide)] at h1
  exact absurd h1 (by decide)

/-- C122 fails for names: `int inlined(int a);` is shown as `int d(int a);`. -/
theorem C122_name_refuted {w t : Line} (hw : NoSpec w) : docStrip (w ++ 32#8 :: ([105, 110, 108, 105, 110, 101] ++ t)) = w ++ 32#8 :: docStrip t := by
  rw [docStrip_word hw, docStrip_inline]

/-- C122: `static inline int volatile __attribute__(cold) f(int a);`. -/
example : docStrip (declText [.static, .inline, .word [105, 110, 116], .volatile, .attr [99, 111, 108, 100]] [102, 40, 105, 110, 116, 32, 97, 41, 59, 10]) =
    [32, 32, 105, 110, 116, 32, 32, 32, 102, 40, 105, 110, 116, 32, 97, 41, 59, 10] :=
  C122_shown_partial (by intro p hp; simp only [List.mem_cons, List.not_mem_nil, or_false] at hp
                         rcases hp with rfl | rfl | rfl | rfl | rfl
                         · trivial
                         · trivial
                         · show NoSpec _; unfold NoSpec; decide +kernel
                         · trivial
                         · show 10#8 ∉ _; decide)
    (by intro x hx; simp at hx; subst hx; decide) (by unfold NoSpec; decide +kernel)

/-- C122: an attribute as it is written, and a name. -/
example : docStrip (declText [.attr [40, 99, 111, 108, 100, 41]] [102, 59]) = [41, 32, 102, 59] ∧ docStrip [105, 110, 116, 32, 105, 110, 108, 105, 110, 101, 100, 59] = [105, 110, 116, 32, 100, 59] :=
  ⟨C122_bracket_refuted (x := [99, 111, 108, 100]) (by decide) (by decide) (by unfold NoSpec; decide +kernel),
    (C122_name_refuted (w := [105, 110, 116]) (t := [100, 59]) (by unfold NoSpec; decide +kernel)).trans
      (by rw [docStrip_last (by unfold NoSpec; decide +kernel)]; rfl)⟩

end Minilib

import Verif.Spec.Template
/-
C111: the script that fills in templates.
-/

set_option autoImplicit false

namespace Minilib
open Spec

theorem begins_append (p r : Line) : begins p (p ++ r) = true := by
  unfold begins; exact List.isPrefixOf_iff_prefix.2 (List.prefix_append ..)

theorem findAfter_isSome {p : Line} : ∀ {l : Line}, (findAfter p l).isSome = true ↔ ∃ a b, l = a ++ p ++ b
  | [] => by
    unfold findAfter
    split
    · rename_i h; subst h; simp
    · rename_i h
      simp only [Option.isSome_none, Bool.false_eq_true, false_iff, not_exists]
      intro a b e
      have := congrArg List.length e
      simp only [List.length_nil, List.length_append] at this
      exact h (List.eq_nil_of_length_eq_zero (by omega))
  | x :: l => by
    unfold findAfter
    split
    · rename_i h
      obtain ⟨r, hr⟩ := List.isPrefixOf_iff_prefix.1 h
      simp only [Option.isSome_some, true_iff]
      exact ⟨[], r, by simpa using hr.symm⟩
    · rename_i h
      rw [findAfter_isSome]
      constructor
      · rintro ⟨a, b, rfl⟩; exact ⟨x :: a, b, by simp⟩
      · rintro ⟨a, b, e⟩
        cases a with
        | nil => exact absurd (by rw [e]; simpa using begins_append p b) h
        | cons y a => exact ⟨a, b, by simpa using (List.cons.inj (by simpa using e)).2⟩

/-- The mark is found where it stands first. -/
theorem findAfter_first {p b : Line} : ∀ (a : Line), (∀ a' b', a ++ p ++ b = a' ++ p ++ b' → a.length ≤ a'.length) →
    findAfter p (a ++ p ++ b) = some b
  | [], _ => by
    cases hp : p with
    | nil => cases b with
      | nil => simp [findAfter]
      | cons x b => simp [findAfter, begins]
    | cons x p' =>
      have h : begins (x :: p') (x :: (p' ++ b)) = true := begins_append (x :: p') b
      simp [findAfter, h]
  | x :: a, h => by
    have hb : ¬ begins p (x :: (a ++ p ++ b)) = true := by
      intro e
      obtain ⟨r, hr⟩ := List.isPrefixOf_iff_prefix.1 e
      have := h [] r (by simpa using hr.symm)
      simp at this
    simp only [List.cons_append, findAfter]
    rw [if_neg hb]
    exact findAfter_first a (fun a' b' e => by
      have := h (x :: a') b' (by simpa using e)
      simpa using this)

/-- The mark is the first. -/
theorem first_of_plain {a p t b : Line} (h : Plain a p) : ∀ a' b', a ++ (p ++ t) ++ b = a' ++ (p ++ t) ++ b' → a.length ≤ a'.length := by
  intro a' b' e
  obtain ⟨x, q, rfl, hx⟩ := h
  rcases Nat.lt_or_ge a'.length a.length with hlt | hge
  · exfalso
    have h1 : (a ++ (x :: q ++ t) ++ b)[a'.length]? = some x := by
      rw [e, List.append_assoc, List.getElem?_append_right (Nat.le_refl _)]; simp
    rw [List.append_assoc, List.getElem?_append_left hlt] at h1
    exact hx (List.mem_of_getElem? h1)
  · exact hge

theorem startMark_none {p l : Line} (h : ¬ Starts p l) : startMark p l = none := by
  unfold startMark
  cases hf : findAfter (p ++ txStart) l with
  | none => rfl
  | some r =>
    have : (findAfter (p ++ txStart) l).isSome = true := by rw [hf]; rfl
    obtain ⟨a, b, e⟩ := findAfter_isSome.1 this
    exact absurd ⟨a, b, by rw [e]; simp [txStart]⟩ h

theorem endMark_iff {p l : Line} : endMark p l = true ↔ Ends p l := by
  unfold endMark Ends
  rw [findAfter_isSome]
  constructor <;> rintro ⟨a, b, rfl⟩ <;> exact ⟨a, b, by simp [txEnd]⟩

theorem word_spaced {t : Line} (h : Spaced t) : ([84#8, 77#8, 80#8, 76#8] ++ t).takeWhile (!plSpace ·) = txTMPL := by
  obtain ⟨x, q, rfl, hx⟩ := h
  have h1 : plSpace 84#8 = false ∧ plSpace 77#8 = false ∧ plSpace 80#8 = false ∧ plSpace 76#8 = false := by decide
  simp [hx, h1, txTMPL]

theorem startMark_line {a p t : Line} (h : Plain a p) (ht : Spaced t) : startMark p (startLine a p t) = some txTMPL := by
  have := findAfter_first (p := p ++ txStart) (b := [84#8, 77#8, 80#8, 76#8] ++ t) a (first_of_plain h)
  have e : startLine a p t = a ++ (p ++ txStart) ++ ([84#8, 77#8, 80#8, 76#8] ++ t) := by simp [startLine, txStart]
  unfold startMark
  rw [e, this, Option.map_some, word_spaced ht]

theorem endName_line {a p t : Line} (h : Plain a p) (ht : Spaced t) : endName p (endLine a p t) = some txTMPL := by
  have := findAfter_first (p := p ++ txEnd) (b := 32#8 :: ([84#8, 77#8, 80#8, 76#8] ++ t)) a (first_of_plain h)
  have e : endLine a p t = a ++ (p ++ txEnd) ++ (32#8 :: ([84#8, 77#8, 80#8, 76#8] ++ t)) := by simp [endLine, txEnd]
  have h1 : plSpace 32#8 = true ∧ plSpace 84#8 = false := by decide
  unfold endName
  rw [e, this, Option.map_some]
  have h2 : (32#8 :: ([84#8, 77#8, 80#8, 76#8] ++ t)).dropWhile plSpace = [84#8, 77#8, 80#8, 76#8] ++ t := by simp [h1]
  rw [h2, word_spaced ht]

theorem endMark_line (a p t : Line) : endMark p (endLine a p t) = true :=
  endMark_iff.2 ⟨a, [84#8, 77#8, 80#8, 76#8] ++ t, by simp [endLine]⟩

theorem tmpl_outside {p : Line} {insert : Bool} {text : List Line} : ∀ {a b : List Line}, (∀ l ∈ a, ¬ Starts p l) →
    tmplLoop p insert false text (a ++ b) = (tmplLoop p insert false text b).map (a ++ ·)
  | [], b, _ => by simp
  | l :: a, b, h => by
    rw [List.cons_append, tmplLoop]
    simp only [Bool.false_eq_true, if_false]
    rw [startMark_none (h l (List.mem_cons_self ..)), tmpl_outside (fun x hx => h x (List.mem_cons_of_mem _ hx))]
    simp [Function.comp_def]

theorem tmpl_inside {p : Line} {insert : Bool} {text : List Line} : ∀ {a b : List Line}, (∀ l ∈ a, ¬ Ends p l) →
    tmplLoop p insert true text (a ++ b) = (tmplLoop p insert true text b).map ((if insert then a else []) ++ ·)
  | [], b, _ => by simp
  | l :: a, b, h => by
    have he : ¬ endMark p l = true := fun e => h l (List.mem_cons_self ..) (endMark_iff.1 e)
    rw [List.cons_append, tmplLoop]
    simp only [if_true]
    rw [if_neg he, tmpl_inside (fun x hx => h x (List.mem_cons_of_mem _ hx))]
    cases insert <;> simp [Function.comp_def]

/-- C111: one place in the file: the text stands between the marks, in front of what was there (with -insert) or instead of it; everything else
stays. -/
theorem C111_fill_partial {p x y t u : Line} {insert : Bool} {text a b c : List Line} (hx : Plain x p) (hy : Plain y p) (ht : Spaced t) (hu : Spaced u)
    (ha : ∀ l ∈ a, ¬ Starts p l) (hb : ∀ l ∈ b, ¬ Ends p l) (hc : ∀ l ∈ c, ¬ Starts p l) :
    template p insert text (a ++ startLine x p t :: (b ++ endLine y p u :: c))
      = a ++ startLine x p t :: (text ++ (if insert then b else []) ++ endLine y p u :: c) := by
  unfold template
  have h3 : tmplLoop p insert false [] c = some c := by
    have := tmpl_outside (insert := insert) (text := []) (b := []) hc
    simpa [tmplLoop] using this
  have h2 : tmplLoop p insert true [] (endLine y p u :: c) = some (endLine y p u :: c) := by
    rw [tmplLoop]
    simp only [if_true]
    rw [if_pos (endMark_line y p u), if_pos (endName_line hy hu), h3]
    rfl
  have h1 : tmplLoop p insert false text (startLine x p t :: (b ++ endLine y p u :: c))
      = some (startLine x p t :: (text ++ ((if insert then b else []) ++ endLine y p u :: c))) := by
    rw [tmplLoop]
    simp only [Bool.false_eq_true, if_false]
    rw [startMark_line hx ht]
    simp only [if_true]
    rw [tmpl_inside hb, h2]
    rfl
  rw [tmpl_outside ha, h1]
  simp

/-- C111: filling again replaces the text: only the last one counts. -/
theorem C111_again_partial {p x y t u : Line} {text text' a b c : List Line} (hx : Plain x p) (hy : Plain y p) (ht : Spaced t) (hu : Spaced u)
    (ha : ∀ l ∈ a, ¬ Starts p l) (hb : ∀ l ∈ b, ¬ Ends p l) (hc : ∀ l ∈ c, ¬ Starts p l) (hte : ∀ l ∈ text, ¬ Ends p l) :
    template p false text' (template p false text (a ++ startLine x p t :: (b ++ endLine y p u :: c)))
      = template p false text' (a ++ startLine x p t :: (b ++ endLine y p u :: c)) := by
  rw [C111_fill_partial hx hy ht hu ha hb hc, C111_fill_partial hx hy ht hu ha hb hc]
  simp only [Bool.false_eq_true, if_false, List.append_nil]
  rw [C111_fill_partial (insert := false) hx hy ht hu ha hte hc]
  simp

/-- C111: a file without marks stays as it is. -/
theorem C111_unmarked {p : Line} {insert : Bool} {text a : List Line} (ha : ∀ l ∈ a, ¬ Starts p l) : template p insert text a = a := by
  unfold template
  have := tmpl_outside (insert := insert) (text := text) (b := []) ha
  rw [List.append_nil] at this
  rw [this]
  simp [tmplLoop]

/-- C111 fails without an end mark: everything behind the start mark is lost, without a message. -/
theorem C111_end_refuted {p x t : Line} {text a b : List Line} (hx : Plain x p) (ht : Spaced t) (ha : ∀ l ∈ a, ¬ Starts p l) (hb : ∀ l ∈ b, ¬ Ends p l) :
    template p false text (a ++ startLine x p t :: b) = a ++ startLine x p t :: text := by
  unfold template
  have h2 := tmpl_inside (insert := false) (text := []) (b := []) hb
  have h1 : tmplLoop p false false text (startLine x p t :: b) = some (startLine x p t :: text) := by
    rw [tmplLoop]
    simp only [Bool.false_eq_true, if_false]
    rw [startMark_line hx ht]
    simp only [if_true]
    rw [List.append_nil] at h2
    rw [h2]
    simp [tmplLoop]
  rw [tmpl_outside ha, h1]
  simp

/-- C111 fails for a second place of the same name: it is emptied. -/
theorem C111_second_refuted {p x y x' y' t u t' u' : Line} {text a b c b' d : List Line} (hx : Plain x p) (hy : Plain y p) (hx' : Plain x' p) (hy' : Plain y' p)
    (ht : Spaced t) (hu : Spaced u) (ht' : Spaced t') (hu' : Spaced u')
    (ha : ∀ l ∈ a, ¬ Starts p l) (hb : ∀ l ∈ b, ¬ Ends p l) (hc : ∀ l ∈ c, ¬ Starts p l) (hb' : ∀ l ∈ b', ¬ Ends p l) (hd : ∀ l ∈ d, ¬ Starts p l) :
    template p false text (a ++ startLine x p t :: (b ++ endLine y p u :: (c ++ startLine x' p t' :: (b' ++ endLine y' p u' :: d))))
      = a ++ startLine x p t :: (text ++ endLine y p u :: (c ++ startLine x' p t' :: (endLine y' p u' :: d))) := by
  have h3 : tmplLoop p false false [] (c ++ startLine x' p t' :: (b' ++ endLine y' p u' :: d))
      = some (c ++ startLine x' p t' :: (endLine y' p u' :: d)) := by
    have h5 : tmplLoop p false false [] d = some d := by
      have := tmpl_outside (insert := false) (text := []) (b := []) hd
      simpa [tmplLoop] using this
    have h4 : tmplLoop p false true [] (endLine y' p u' :: d) = some (endLine y' p u' :: d) := by
      rw [tmplLoop]
      simp only [if_true]
      rw [if_pos (endMark_line y' p u'), if_pos (endName_line hy' hu'), h5]
      rfl
    have h1 : tmplLoop p false false [] (startLine x' p t' :: (b' ++ endLine y' p u' :: d)) = some (startLine x' p t' :: endLine y' p u' :: d) := by
      rw [tmplLoop]
      simp only [Bool.false_eq_true, if_false]
      rw [startMark_line hx' ht']
      simp only [if_true]
      rw [tmpl_inside hb', h4]
      rfl
    rw [tmpl_outside hc, h1]
    simp
  unfold template
  have h2 : tmplLoop p false true [] (endLine y p u :: (c ++ startLine x' p t' :: (b' ++ endLine y' p u' :: d)))
      = some (endLine y p u :: (c ++ startLine x' p t' :: (endLine y' p u' :: d))) := by
    rw [tmplLoop]
    simp only [if_true]
    rw [if_pos (endMark_line y p u), if_pos (endName_line hy hu), h3]
    rfl
  have h1 : tmplLoop p false false text (startLine x p t :: (b ++ endLine y p u :: (c ++ startLine x' p t' :: (b' ++ endLine y' p u' :: d))))
      = some (startLine x p t :: (text ++ endLine y p u :: (c ++ startLine x' p t' :: (endLine y' p u' :: d)))) := by
    rw [tmplLoop]
    simp only [Bool.false_eq_true, if_false]
    rw [startMark_line hx ht]
    simp only [if_true]
    rw [tmpl_inside hb, h2]
    rfl
  rw [tmpl_outside ha, h1]
  simp

/-- `a`, `# T-start: TMPL`, `b`, `# T-end: TMPL`, `c`, filled with `n`. -/
example : template [84#8] false [[110#8, 10#8]]
    ([[97#8, 10#8]] ++ startLine [35#8, 32#8] [84#8] [10#8] :: ([[98#8, 10#8]] ++ endLine [35#8, 32#8] [84#8] [10#8] :: [[99#8, 10#8]]))
      = [[97#8, 10#8]] ++ startLine [35#8, 32#8] [84#8] [10#8] :: ([[110#8, 10#8]] ++ [] ++ endLine [35#8, 32#8] [84#8] [10#8] :: [[99#8, 10#8]]) := by
  have hs : ∀ x : Line, x.length < 9 → ¬ Starts [84#8] x := by
    rintro x hx ⟨a, b, rfl⟩
    simp at hx; omega
  have he : ∀ x : Line, x.length < 7 → ¬ Ends [84#8] x := by
    rintro x hx ⟨a, b, rfl⟩
    simp at hx; omega
  exact C111_fill_partial (insert := false) ⟨84#8, [], rfl, by decide⟩ ⟨84#8, [], rfl, by decide⟩ ⟨10#8, [], rfl, rfl⟩ ⟨10#8, [], rfl, rfl⟩ (fun l hl => hs l (by simp at hl; subst hl; decide))
    (fun l hl => he l (by simp at hl; subst hl; decide)) (fun l hl => hs l (by simp at hl; subst hl; decide))

end Minilib

import Verif.Spec.Ifdefs
import Verif.Model.Ifdefs
import Verif.Props.Stripundefs
/-
C116: the listing of conditional directives.
-/

set_option autoImplicit false

namespace Minilib

open _root_.Spec

/-- A line of conditional inclusion as the listing shows it. -/
def shown (c : CondLine) : IfdefsLine := ⟨c.depth, c.num, c.line⟩

theorem ifdefs_conds : ∀ (ls : List Line) (n : Nat) (st : List Nat) (cs : List CondLine), (∀ l ∈ ls, Plainly l) →
    condLines n st ls = some cs → ifdefs n st.length ls = cs.map shown
  | [], n, st, cs, _, h => by
    rw [condLines] at h
    split at h
    · cases h; rfl
    · cases h
  | l :: ls, n, st, cs, hp, h => by
    obtain ⟨⟨f1, f2⟩, f3, f4⟩ := hp l (by simp)
    have hp' : ∀ l ∈ ls, Plainly l := fun x hx => hp x (by simp [hx])
    have k1 : begins reIf l = true ↔ lineKind l = .cond := by rw [f1]; exact begins_iff
    have k2 : begins reEndif l = true ↔ lineKind l = .endif := by rw [f2]; exact begins_iff
    have k3 : begins reElse l = true ↔ lineKind l = .els := by rw [f3]; exact begins_iff
    rw [ifdefs]
    simp only [k1, k2, k3]
    rw [condLines.eq_def] at h
    simp only at h
    cases hk : lineKind l with
    | cond =>
      rw [hk] at h
      simp only [Option.map_eq_some_iff] at h
      obtain ⟨r, h1, rfl⟩ := h
      rw [if_pos rfl, List.map_cons, ← ifdefs_conds ls _ _ r hp' h1]
      simp [shown]
    | elif => exact absurd hk f4
    | els =>
      rw [hk] at h
      cases st with
      | nil => cases h
      | cons o st =>
        simp only [Option.map_eq_some_iff] at h
        obtain ⟨r, h1, rfl⟩ := h
        rw [if_neg (by simp), if_neg (by simp), if_pos rfl, List.map_cons, ← ifdefs_conds ls _ _ r hp' h1]
        simp [shown]
    | endif =>
      rw [hk] at h
      cases st with
      | nil => cases h
      | cons o st =>
        simp only [Option.map_eq_some_iff] at h
        obtain ⟨r, h1, rfl⟩ := h
        rw [if_neg (by simp), if_pos rfl, List.map_cons, ← ifdefs_conds ls _ _ r hp' h1]
        simp [shown]
    | other =>
      rw [hk] at h
      simp only at h
      rw [if_neg (by simp), if_neg (by simp), if_neg (by simp)]
      exact ifdefs_conds ls _ _ cs hp' h

/-- C116: the listing has all directives of conditional inclusion, in order, with their line numbers and the number of conditions open. -/
theorem C116_listing_partial {ls : List Line} {cs : List CondLine} (hp : ∀ l ∈ ls, Plainly l) (h : condLines 0 [] ls = some cs) :
    ifdefs 0 0 ls = cs.map (fun c => ⟨c.depth, c.num, c.line⟩) := ifdefs_conds ls 0 [] cs hp h

/-- The last condition listed with this depth. -/
def _root_.Spec.lastAt (d : Int) (es : List IfdefsLine) : Option Nat :=
  (es.reverse.find? (fun e => decide (lineKind e.line = .cond) && decide (e.ifs = d))).map (·.ln)

theorem lastAt_concat (d : Int) (es : List IfdefsLine) (e : IfdefsLine) :
    lastAt d (es ++ [e]) = if lineKind e.line = .cond ∧ e.ifs = d then some e.ln else lastAt d es := by
  unfold lastAt
  rw [List.reverse_append, List.reverse_singleton, List.singleton_append, List.find?_cons]
  by_cases h : lineKind e.line = .cond ∧ e.ifs = d
  · rw [if_pos h]; simp [h.1, h.2]
  · rw [if_neg h]
    have : (decide (lineKind e.line = .cond) && decide (e.ifs = d)) = false := by
      simpa using fun a => fun b => h ⟨a, b⟩
    rw [this]

/-- The conditions open are the last ones listed with their depths. -/
def Tops (st : List Nat) (es : List IfdefsLine) : Prop := ∀ j (hj : j < st.length), lastAt ((st.length - j : Nat) : Int) es = some st[j]

theorem tops_pop {o : Nat} {st : List Nat} {es : List IfdefsLine} (h : Tops (o :: st) es) : Tops st es := by
  intro j hj
  have := h (j + 1) (by simp; omega)
  simpa using this

theorem tops_add {st : List Nat} {es : List IfdefsLine} (h : Tops st es) {e : IfdefsLine} (he : lineKind e.line ≠ .cond) : Tops st (es ++ [e]) := by
  intro j hj
  rw [lastAt_concat, if_neg (fun x => he x.1)]
  exact h j hj

theorem tops_push {st : List Nat} {es : List IfdefsLine} (h : Tops st es) {e : IfdefsLine} (he : lineKind e.line = .cond)
    (hd : e.ifs = st.length + 1) : Tops (e.ln :: st) (es ++ [e]) := by
  intro j hj
  rw [lastAt_concat]
  cases j with
  | zero => rw [if_pos ⟨he, by rw [hd]; simp⟩]; rfl
  | succ j =>
    simp only [List.length_cons] at hj
    rw [if_neg (fun x => by have := x.2; rw [hd] at this; simp only [List.length_cons] at this; omega)]
    have := h j (by omega)
    simp only [List.length_cons, List.getElem_cons_succ]
    rw [← this]
    congr 1
    omega

theorem owners : ∀ (ls : List Line) (n : Nat) (st : List Nat) (cs : List CondLine) (es : List IfdefsLine), Tops st es →
    condLines n st ls = some cs → ∀ a c b, cs = a ++ c :: b → lastAt c.depth (es ++ a.map shown ++ [shown c]) = some c.owner
  | [], n, st, cs, es, _, h, a, c, b, e => by
    rw [condLines] at h
    split at h
    · cases h; simp at e
    · cases h
  | l :: ls, n, st, cs, es, ht, h, a, c, b, e => by
    -- one directive, then the rest
    have step : ∀ (x : CondLine) (st' : List Nat) (r : List CondLine), cs = x :: r → condLines (n + 1) st' ls = some r →
        Tops st' (es ++ [shown x]) → lastAt x.depth (es ++ [shown x]) = some x.owner →
        lastAt c.depth (es ++ a.map shown ++ [shown c]) = some c.owner := by
      intro x st' r h1 h2 h3 h4
      rw [h1] at e
      cases a with
      | nil =>
        simp only [List.nil_append, List.cons.injEq] at e
        rw [← e.1]
        simpa using h4
      | cons y a =>
        simp only [List.cons_append, List.cons.injEq] at e
        have := owners ls (n + 1) st' r (es ++ [shown x]) h3 h2 a c b e.2
        rw [← e.1]
        simpa using this
    rw [condLines.eq_def] at h
    simp only at h
    cases hk : lineKind l with
    | cond =>
      rw [hk] at h
      simp only [Option.map_eq_some_iff] at h
      obtain ⟨r, h1, h2⟩ := h
      refine step _ _ r h2.symm h1 (tops_push (e := shown ⟨n + 1, st.length + 1, l, n + 1⟩) ht hk (by simp [shown])) ?_
      rw [lastAt_concat, if_pos ⟨hk, rfl⟩]; rfl
    | elif =>
      rw [hk] at h
      cases st with
      | nil => cases h
      | cons o st =>
        simp only [Option.map_eq_some_iff] at h
        obtain ⟨r, h1, h2⟩ := h
        have he : lineKind (shown ⟨n + 1, st.length + 1, l, o⟩).line ≠ .cond := by simp [shown, hk]
        refine step _ _ r h2.symm h1 (tops_add ht he) ?_
        exact tops_add ht he 0 (by simp)
    | els =>
      rw [hk] at h
      cases st with
      | nil => cases h
      | cons o st =>
        simp only [Option.map_eq_some_iff] at h
        obtain ⟨r, h1, h2⟩ := h
        have he : lineKind (shown ⟨n + 1, st.length + 1, l, o⟩).line ≠ .cond := by simp [shown, hk]
        refine step _ _ r h2.symm h1 (tops_add ht he) ?_
        exact tops_add ht he 0 (by simp)
    | endif =>
      rw [hk] at h
      cases st with
      | nil => cases h
      | cons o st =>
        simp only [Option.map_eq_some_iff] at h
        obtain ⟨r, h1, h2⟩ := h
        have he : lineKind (shown ⟨n + 1, st.length + 1, l, o⟩).line ≠ .cond := by simp [shown, hk]
        refine step _ _ r h2.symm h1 (tops_pop (tops_add ht he)) ?_
        exact tops_add ht he 0 (by simp)
    | other =>
      rw [hk] at h
      simp only at h
      exact owners ls (n + 1) st cs es ht h a c b e

/-- C116: a line of the listing belongs to the last condition listed up to it with the same depth. -/
theorem C116_pairs_partial {ls : List Line} {cs : List CondLine} (hp : ∀ l ∈ ls, Plainly l) (h : condLines 0 [] ls = some cs)
    {a b : List IfdefsLine} {e : IfdefsLine} (he : ifdefs 0 0 ls = a ++ e :: b) :
    ∃ c ∈ cs, c.num = e.ln ∧ c.line = e.line ∧ lastAt e.ifs (a ++ [e]) = some c.owner := by
  have h1 : ifdefs 0 0 ls = cs.map shown := ifdefs_conds ls 0 [] cs hp h
  rw [he] at h1
  obtain ⟨a', r', hc, ha, hr⟩ := List.map_eq_append_iff.1 h1.symm
  obtain ⟨c, b', hr', hc', hb⟩ := List.map_eq_cons_iff.1 hr
  subst hr'
  have := owners ls 0 [] cs [] (fun j hj => by simp at hj) h a' c b' hc
  refine ⟨c, by rw [hc]; simp, by rw [← hc']; rfl, by rw [← hc']; rfl, ?_⟩
  rw [List.nil_append, ha, hc'] at this
  rw [← this, ← hc']
  rfl

/-- C116 as a whole. -/
def C116_full : Prop := ∀ (ls : List Line) (cs : List CondLine), condLines 0 [] ls = some cs →
  ifdefs 0 0 ls = cs.map (fun c => ⟨c.depth, c.num, c.line⟩)

/-- "#if A". -/
def ifA : Line := [35#8, 105#8, 102#8, 32#8, 65#8, 10#8]
/-- "#elif B". -/
def elifB : Line := [35#8, 101#8, 108#8, 105#8, 102#8, 32#8, 66#8, 10#8]
/-- "#else". -/
def elseLine : Line := [35#8, 101#8, 108#8, 115#8, 101#8, 10#8]
/-- "#endif". -/
def endifLine : Line := [35#8, 101#8, 110#8, 100#8, 105#8, 102#8, 10#8]
/-- "# endif". -/
def endifBlank : Line := [35#8, 32#8, 101#8, 110#8, 100#8, 105#8, 102#8, 10#8]

/-- C116 fails: `#elif` is not listed. -/
theorem C116_elif_refuted : ¬ C116_full := fun h =>
  absurd (h [ifA, elifB, endifLine] [⟨1, 1, ifA, 1⟩, ⟨2, 1, elifB, 1⟩, ⟨3, 1, endifLine, 1⟩] (by decide +kernel)) (by decide +kernel)

/-- C116 fails: a directive with a blank behind the `#` is not seen, and the depths behind it are wrong. -/
theorem C116_blank_refuted : ¬ C116_full ∧ (ifdefs 0 0 [ifA, endifBlank, ifA, endifLine]).map (·.ifs) = [1, 2, 2] :=
  ⟨fun h => absurd (h [ifA, endifBlank, ifA, endifLine]
    [⟨1, 1, ifA, 1⟩, ⟨2, 1, endifBlank, 1⟩, ⟨3, 1, ifA, 3⟩, ⟨4, 1, endifLine, 3⟩] (by decide +kernel)) (by decide +kernel), by decide +kernel⟩

/-- A condition in a condition. -/
def twoDeep : List Line := [ifA, [97#8, 10#8], ifA, elseLine, endifLine, elseLine, endifLine]

theorem twoDeep_plain : ∀ l ∈ twoDeep, Plainly l := by
  unfold Plainly Flush; decide +kernel

/-- C116: six lines, the third and fifth of depth 2. -/
example : ifdefs 0 0 twoDeep = [⟨1, 1, ifA⟩, ⟨2, 3, ifA⟩, ⟨2, 4, elseLine⟩, ⟨2, 5, endifLine⟩, ⟨1, 6, elseLine⟩, ⟨1, 7, endifLine⟩] :=
  C116_listing_partial (cs := [⟨1, 1, ifA, 1⟩, ⟨3, 2, ifA, 3⟩, ⟨4, 2, elseLine, 3⟩, ⟨5, 2, endifLine, 3⟩, ⟨6, 1, elseLine, 1⟩, ⟨7, 1, endifLine, 1⟩])
    twoDeep_plain (by decide +kernel)

/-- C116: the last line belongs to the first. -/
example : lastAt 1 (ifdefs 0 0 twoDeep) = some 1 := by
  have hc : condLines 0 [] twoDeep = some [⟨1, 1, ifA, 1⟩, ⟨3, 2, ifA, 3⟩, ⟨4, 2, elseLine, 3⟩, ⟨5, 2, endifLine, 3⟩, ⟨6, 1, elseLine, 1⟩, ⟨7, 1, endifLine, 1⟩] := by
    decide +kernel
  obtain ⟨c, h1, h2, _, h4⟩ := C116_pairs_partial twoDeep_plain hc
    (a := [⟨1, 1, ifA⟩, ⟨2, 3, ifA⟩, ⟨2, 4, elseLine⟩, ⟨2, 5, endifLine⟩, ⟨1, 6, elseLine⟩]) (e := ⟨1, 7, endifLine⟩) (b := []) (by decide +kernel)
  rw [show ifdefs 0 0 twoDeep = [⟨1, 1, ifA⟩, ⟨2, 3, ifA⟩, ⟨2, 4, elseLine⟩, ⟨2, 5, endifLine⟩, ⟨1, 6, elseLine⟩] ++ [⟨1, 7, endifLine⟩] by decide +kernel, h4]
  simp only [List.mem_cons, List.not_mem_nil, or_false] at h1
  rcases h1 with rfl | rfl | rfl | rfl | rfl | rfl <;> first | rfl | (exfalso; revert h2; decide)

end Minilib

import Verif.Spec.Guards
import Verif.Model.Guards
/-
C121: the guards of the generated headers.
-/

set_option autoImplicit false

namespace Minilib

open _root_.Spec

/-- `#ifndef included_`. -/
abbrev gIfn : Line := [35, 105, 102, 110, 100, 101, 102, 32, 105, 110, 99, 108, 117, 100, 101, 100, 95]
/-- `#define included_`. -/
abbrev gDef : Line := [35, 100, 101, 102, 105, 110, 101, 32, 105, 110, 99, 108, 117, 100, 101, 100, 95]

theorem guardByte {a b : Byte} : ((if a = 46#8 ∨ a = 47#8 then 95#8 else a) = (if b = 46#8 ∨ b = 47#8 then 95#8 else b)) ↔ (a = b ∨ (NameSep a ∧ NameSep b)) := by
  unfold NameSep
  by_cases ha : a = 46#8 ∨ a = 47#8
  · rw [if_pos ha]
    by_cases hb : b = 46#8 ∨ b = 47#8
    · rw [if_pos hb]
      have h1 : a = 46#8 ∨ a = 47#8 ∨ a = 95#8 := by rcases ha with h | h <;> simp [h]
      have h2 : b = 46#8 ∨ b = 47#8 ∨ b = 95#8 := by rcases hb with h | h <;> simp [h]
      simp [h1, h2]
    · rw [if_neg hb]
      constructor
      · intro e
        right
        refine ⟨?_, Or.inr (Or.inr e.symm)⟩
        rcases ha with h | h <;> simp [h]
      · rintro (rfl | ⟨_, h⟩)
        · exact absurd ha hb
        · rcases h with h | h | h
          · exact absurd (Or.inl h) hb
          · exact absurd (Or.inr h) hb
          · exact h.symm
  · rw [if_neg ha]
    by_cases hb : b = 46#8 ∨ b = 47#8
    · rw [if_pos hb]
      constructor
      · intro e
        right
        refine ⟨Or.inr (Or.inr e), ?_⟩
        rcases hb with h | h <;> simp [h]
      · rintro (rfl | ⟨h, _⟩)
        · exact absurd hb ha
        · rcases h with h | h | h
          · exact absurd (Or.inl h) ha
          · exact absurd (Or.inr h) ha
          · exact h
    · rw [if_neg hb]
      constructor
      · exact Or.inl
      · rintro (h | ⟨h, h'⟩)
        · exact h
        · rcases h with h | h | h
          · exact absurd (Or.inl h) ha
          · exact absurd (Or.inr h) ha
          · rcases h' with h' | h' | h'
            · exact absurd (Or.inl h') hb
            · exact absurd (Or.inr h') hb
            · rw [h, h']

/-- Two headers have the same guard exactly when their names are alike. -/
theorem guard_alike : ∀ {x y : Line}, guardName x = guardName y ↔ Alike x y
  | [], [] => by simp [guardName, Alike]
  | [], b :: y => by simp [guardName, Alike]
  | a :: x, [] => by simp [guardName, Alike]
  | a :: x, b :: y => by
    have ih := guard_alike (x := x) (y := y)
    unfold guardName at ih ⊢
    rw [List.map_cons, List.map_cons, List.cons.injEq, ih, guardByte, Alike]

theorem preproc_live {ev : List Line → Line → Bool} {st : List PGroup} (hs : st.all (·.on) = true) {ls : List Line} (h : ∀ l ∈ ls, lineKind l = .other)
    (out rest : List Line) : preproc ev out st (ls ++ rest) = preproc ev (out ++ ls) st rest := by
  induction ls generalizing out with
  | nil => simp
  | cons l ls ih =>
    rw [List.cons_append, preproc.eq_def]
    simp only [h l (by simp), hs, if_true]
    rw [ih (fun x hx => h x (by simp [hx]))]
    simp

theorem preproc_dead {ev : List Line → Line → Bool} {st : List PGroup} (hs : st.all (·.on) = false) {ls : List Line} (h : ∀ l ∈ ls, lineKind l = .other)
    (out rest : List Line) : preproc ev out st (ls ++ rest) = preproc ev out st rest := by
  induction ls with
  | nil => simp
  | cons l ls ih =>
    rw [List.cons_append, preproc.eq_def]
    simp only [h l (by simp), hs]
    exact ih (fun x hx => h x (by simp [hx]))

theorem preproc_plain {ev : List Line → Line → Bool} {st : List PGroup} {ls : List Line} (h : ∀ l ∈ ls, lineKind l = .other)
    (out rest : List Line) : preproc ev out st (ls ++ rest) = preproc ev (if st.all (·.on) then out ++ ls else out) st rest := by
  by_cases hs : st.all (·.on) = true
  · rw [preproc_live hs h, if_pos hs]
  · rw [preproc_dead (by simpa using hs) h, if_neg hs]

theorem srcLine_other (s : Line) : lineKind (srcLine s) = .other := rfl

/-- What a header has to say: the definition of its guard, the declarations, and the sources if wanted. -/
def headerShown (v : Bool) (h : Line) (decls srcs : List Line) : List Line :=
  (headerTop h).drop 1 ++ decls ++ headerMid.take 5 ++ (if v then [[10#8]] ++ srcs.map srcLine ++ headerEnd.take 7 else []) ++ [[10#8]]

/-- A header inside of its guard. -/
theorem preproc_inside {ev : List Line → Line → Bool} {v : Bool} (he : GuardWorth ev v) {g : PGroup} {decls srcs : List Line} (hd : ∀ l ∈ decls, lineKind l = .other)
    (h : Line) (out rest : List Line) :
    preproc ev out [g] ((headerTop h).drop 1 ++ decls ++ headerMid ++ srcs.map srcLine ++ headerEnd ++ rest) =
      preproc ev (if g.on then out ++ headerShown v h decls srcs else out) [g] rest := by
  have e1 : (headerTop h).drop 1 ++ decls ++ headerMid ++ srcs.map srcLine ++ headerEnd ++ rest =
      ((headerTop h).drop 1 ++ decls ++ headerMid.take 5) ++ ([35, 105, 102, 100, 101, 102, 32, 109, 105, 110, 105, 95, 73, 78, 67, 76, 85, 68, 69, 83, 82, 67, 10] :: (([[10#8]] ++ srcs.map srcLine ++ headerEnd.take 7) ++ ([35, 101, 110, 100, 105, 102, 10] :: ([[10#8]] ++ rest)))) := by
    simp [headerMid, headerEnd]
  have p1 : ∀ l ∈ (headerTop h).drop 1 ++ decls ++ headerMid.take 5, lineKind l = .other := by
    intro l hl
    rcases List.mem_append.1 hl with hl | hl
    · rcases List.mem_append.1 hl with hl | hl
      · simp only [headerTop, List.drop_succ_cons, List.drop_zero, List.mem_cons, List.not_mem_nil, or_false] at hl
        rcases hl with rfl | rfl <;> rfl
      · exact hd l hl
    · exact (by decide +kernel : ∀ l ∈ headerMid.take 5, lineKind l = .other) l hl
  have p2 : ∀ l ∈ [[10#8]] ++ srcs.map srcLine ++ headerEnd.take 7, lineKind l = .other := by
    intro l hl
    rcases List.mem_append.1 hl with hl | hl
    · rcases List.mem_append.1 hl with hl | hl
      · rw [List.mem_singleton.1 hl]; rfl
      · obtain ⟨s, -, rfl⟩ := List.mem_map.1 hl
        exact srcLine_other s
    · exact (by decide +kernel : ∀ l ∈ headerEnd.take 7, lineKind l = .other) l hl
  have k1 : lineKind [35, 105, 102, 100, 101, 102, 32, 109, 105, 110, 105, 95, 73, 78, 67, 76, 85, 68, 69, 83, 82, 67, 10] = .cond := by decide +kernel
  have k2 : lineKind [35, 101, 110, 100, 105, 102, 10] = .endif := by decide +kernel
  rw [e1, preproc_plain p1, preproc]
  simp only [k1, he.2]
  rw [preproc_plain p2, preproc]
  simp only [k2]
  rw [preproc_plain (ls := [[10#8]]) (by intro l hl; rw [List.mem_singleton.1 hl]; rfl)]
  cases hg : g.on <;> cases v <;> simp [hg, headerShown]

/-- A whole header, outside of everything. -/
theorem preproc_header {ev : List Line → Line → Bool} {v : Bool} (he : GuardWorth ev v) {decls srcs : List Line} (hd : ∀ l ∈ decls, lineKind l = .other)
    (h : Line) (out rest : List Line) :
    preproc ev out [] (headerText h decls srcs ++ rest) =
      preproc ev (if gDef ++ guardName h ++ [10#8] ∈ out then out else out ++ headerShown v h decls srcs) [] rest := by
  have e1 : headerText h decls srcs ++ rest = (gIfn ++ guardName h ++ [10#8]) ::
      ((headerTop h).drop 1 ++ decls ++ headerMid ++ srcs.map srcLine ++ headerEnd ++ ([35, 101, 110, 100, 105, 102, 10] :: rest)) := by
    simp [headerText, headerTop]
  have k1 : lineKind (gIfn ++ guardName h ++ [10#8]) = .cond := rfl
  have k2 : lineKind [35, 101, 110, 100, 105, 102, 10] = .endif := by decide +kernel
  rw [e1, preproc]
  simp only [k1, List.all_nil, Bool.true_and]
  rw [preproc_inside he hd, preproc]
  simp only [k2]
  by_cases hin : gDef ++ guardName h ++ [10#8] ∈ out
  · have : ev out (gIfn ++ guardName h ++ [10#8]) = false := by
      cases hx : ev out (gIfn ++ guardName h ++ [10#8]) with
      | false => rfl
      | true => exact absurd hin ((he.1 out _).1 hx)
    rw [this, if_pos hin]; rfl
  · rw [(he.1 out _).2 hin, if_neg hin]; rfl

/-- The definitions of guards in what a header has to say. -/
theorem mem_shown {v : Bool} {decls srcs : List Line} (hd : Decls decls) {h g : Line} :
    gDef ++ g ++ [10#8] ∈ headerShown v h decls srcs ↔ g = guardName h := by
  have hp : ∀ l, ¬ gDef <+: l → gDef ++ g ++ [10#8] ≠ l := by
    intro l hl e
    exact hl (e ▸ ⟨g ++ [10#8], by simp⟩)
  have q1 : ∀ l ∈ headerMid.take 5, ¬ gDef <+: l := by decide +kernel
  have q2 : ∀ l ∈ headerEnd.take 7, ¬ gDef <+: l := by decide +kernel
  have q3 : ¬ gDef <+: [10#8] := by decide +kernel
  have q4 : ∀ s, ¬ gDef <+: srcLine s := by
    rintro s ⟨t, e⟩
    have := congrArg (fun l : Line => l[1]?) e
    simp [srcLine] at this
  constructor
  · intro hm
    unfold headerShown at hm
    simp only [List.mem_append] at hm
    rcases hm with (((hm | hm) | hm) | hm) | hm
    · simp only [headerTop, List.drop_succ_cons, List.drop_zero, List.mem_cons, List.not_mem_nil, or_false] at hm
      rcases hm with e | e
      · exact List.append_cancel_left (List.append_cancel_right e)
      · exact absurd e (hp _ q3)
    · exact absurd rfl (hp _ (hd _ hm).2)
    · exact absurd rfl (hp _ (q1 _ hm))
    · cases v with
      | false => simp at hm
      | true =>
        simp only [if_true, List.mem_append] at hm
        rcases hm with (hm | hm) | hm
        · exact absurd (List.mem_singleton.1 hm) (hp _ q3)
        · obtain ⟨s, -, e⟩ := List.mem_map.1 hm
          exact absurd e.symm (hp _ (q4 s))
        · exact absurd rfl (hp _ (q2 _ hm))
    · exact absurd (List.mem_singleton.1 hm) (hp _ q3)
  · rintro rfl
    simp [headerShown, headerTop]

theorem includes_eq {ev : List Line → Line → Bool} {v : Bool} (he : GuardWorth ev v) {decls srcs : Line → List Line} :
    ∀ (hs seen : List Line) (out : List Line), (∀ h ∈ hs, Decls (decls h)) → (∀ h ∈ hs, ∀ h' ∈ seen ++ hs, Alike h h' → h = h') →
    (∀ h ∈ hs, gDef ++ guardName h ++ [10#8] ∈ out ↔ h ∈ seen) →
    preproc ev out [] (hs.flatMap (fun h => headerText h (decls h) (srcs h))) =
      some (out ++ (onceEach seen hs).flatMap (fun h => headerShown v h (decls h) (srcs h)))
  | [], seen, out, _, _, _ => by simp [preproc, onceEach]
  | h :: hs, seen, out, hd, ha, hi => by
    have hdh := hd h (by simp)
    rw [List.flatMap_cons, preproc_header he (fun l hl => (hdh l hl).1), onceEach]
    by_cases hm : h ∈ seen
    · rw [if_pos ((hi h (by simp)).2 hm), if_pos hm]
      refine includes_eq he hs seen out (fun x hx => hd x (by simp [hx])) (fun x hx y hy => ha x (by simp [hx]) y ?_) (fun x hx => hi x (by simp [hx]))
      simp only [List.mem_append, List.mem_cons] at hy ⊢
      rcases hy with h | h <;> simp [h]
    · rw [if_neg (fun e => hm ((hi h (by simp)).1 e)), if_neg hm]
      rw [includes_eq he hs (h :: seen) _ (fun x hx => hd x (by simp [hx])) (fun x hx y hy => ha x (by simp [hx]) y ?_) (fun x hx => ?_)]
      · simp
      · simp only [List.mem_append, List.mem_cons] at hy ⊢
        rcases hy with (h | h) | h <;> simp [h]
      · rw [List.mem_append, hi x (by simp [hx]), mem_shown hdh, List.mem_cons]
        constructor
        · rintro (h1 | h1)
          · exact Or.inr h1
          · exact Or.inl (ha x (by simp [hx]) h (by simp) (guard_alike.1 h1))
        · rintro (rfl | h1)
          · exact Or.inr rfl
          · exact Or.inl h1

/-- C121 (partial: names that are not alike, i.e. differ in more than dots, slashes and underscores; declarations without conditions): headers may be
included in any order and any number of times: each one counts where it comes first. -/
theorem C121_once_partial {ev : List Line → Line → Bool} {v : Bool} (he : GuardWorth ev v) {decls srcs : Line → List Line} {hs : List Line}
    (hd : ∀ h ∈ hs, Decls (decls h)) (ha : ∀ h ∈ hs, ∀ h' ∈ hs, Alike h h' → h = h') :
    preproc ev [] [] (hs.flatMap (fun h => headerText h (decls h) (srcs h))) =
      some ((onceEach [] hs).flatMap (fun h => headerShown v h (decls h) (srcs h))) := by
  rw [includes_eq he hs [] [] hd (by simpa using ha) (by simp)]
  rfl

/-- C121, what a header brings: its declarations in any case, and the sources exactly with mini_INCLUDESRC. -/
theorem C121_brings {v : Bool} {h : Line} {decls srcs : List Line} :
    decls <:+: headerShown v h decls srcs ∧ (v = true → srcs.map srcLine <:+: headerShown v h decls srcs) ∧
    (headerShown v h decls srcs).length = decls.length + 8 + (if v then srcs.length + 8 else 0) := by
  refine ⟨⟨(headerTop h).drop 1, headerMid.take 5 ++ (if v then [[10#8]] ++ srcs.map srcLine ++ headerEnd.take 7 else []) ++ [[10#8]], ?_⟩, ?_, ?_⟩
  · simp [headerShown]
  · rintro rfl
    exact ⟨(headerTop h).drop 1 ++ decls ++ headerMid.take 5 ++ [[10#8]], headerEnd.take 7 ++ [[10#8]], by simp [headerShown]⟩
  · cases v <;> simp [headerShown, headerTop, headerMid, headerEnd] <;> omega

/-! ### declarations with conditions -/

theorem balanced_append {a b : List Line} (ha : Balanced a) (hb : Balanced b) : Balanced (a ++ b) := by
  induction ha with
  | nil => exact hb
  | line h _ ih => exact Balanced.line h ih
  | group h1 h2 h3 _ _ ih => rw [List.cons_append, List.append_assoc, List.cons_append]; exact Balanced.group h1 h2 h3 ih
  | alt h1 h2 h3 h4 h5 _ _ _ ih =>
    rw [List.cons_append, List.append_assoc, List.cons_append, List.append_assoc, List.cons_append]
    exact Balanced.alt h1 h2 h3 h4 h5 ih

theorem balanced_plain {ls : List Line} (h : ∀ l ∈ ls, lineKind l = .other) : Balanced ls := by
  induction ls with
  | nil => exact .nil
  | cons l ls ih => exact .line (h l (by simp)) (ih fun x hx => h x (by simp [hx]))

/-- Balanced lines add some of them, whatever is around, if that is included. -/
theorem preproc_balanced {ev : List Line → Line → Bool} {B : List Line} (h : Balanced B) : ∀ out, ∃ X : List Line, (∀ l ∈ X, l ∈ B) ∧
    ∀ st rest, preproc ev out st (B ++ rest) = preproc ev (if st.all (·.on) then out ++ X else out) st rest := by
  induction h with
  | nil => exact fun out => ⟨[], by simp, by simp⟩
  | @line l ls hl _ ih =>
    intro out
    obtain ⟨X, h1, h2⟩ := ih (out ++ [l])
    obtain ⟨Y, _, h3⟩ := ih out
    refine ⟨l :: X, ?_, ?_⟩
    · intro x hx
      rcases List.mem_cons.1 hx with rfl | hx
      · simp
      · simp [h1 x hx]
    · intro st rest
      rw [List.cons_append, preproc.eq_def]
      simp only [hl]
      by_cases hs : st.all (·.on) = true
      · rw [if_pos hs, h2, if_pos hs, if_pos hs]; simp
      · rw [if_neg hs, h3, if_neg hs, if_neg hs]
  | @group c e a ls hc he _ _ iha ihl =>
    intro out
    obtain ⟨Xa, a1, a2⟩ := iha out
    obtain ⟨X, l1, l2⟩ := ihl (if ev out c then out ++ Xa else out)
    obtain ⟨Y, _, l3⟩ := ihl out
    refine ⟨(if ev out c then Xa else []) ++ X, ?_, ?_⟩
    · intro x hx
      rcases List.mem_append.1 hx with hx | hx
      · split at hx
        · simp [a1 x hx]
        · simp at hx
      · simp [l1 x hx]
    · intro st rest
      rw [List.cons_append, List.append_assoc, List.cons_append, preproc.eq_def]
      simp only [hc]
      rw [a2, preproc.eq_def]
      simp only [he]
      by_cases hs : st.all (·.on) = true
      · rw [if_pos hs]
        cases hv : ev out c
        · rw [hv] at l2
          simpa [hs] using l2 st rest
        · rw [hv] at l2
          simpa [hs] using l2 st rest
      · rw [if_neg hs]
        have hf : st.all (·.on) = false := by simpa using hs
        have := l3 st rest
        rw [if_neg hs] at this
        simpa [hf] using this
  | @alt c s e a b ls hc hs' he _ _ _ iha ihb ihl =>
    intro out
    obtain ⟨Xa, a1, a2⟩ := iha out
    obtain ⟨Xb, b1, b2⟩ := ihb out
    obtain ⟨Xc, _, b3⟩ := ihb (out ++ Xa)
    obtain ⟨X, l1, l2⟩ := ihl (if ev out c then out ++ Xa else out ++ Xb)
    obtain ⟨Y, _, l3⟩ := ihl out
    refine ⟨(if ev out c then Xa else Xb) ++ X, ?_, ?_⟩
    · intro x hx
      rcases List.mem_append.1 hx with hx | hx
      · split at hx
        · simp [a1 x hx]
        · simp [b1 x hx]
      · simp [l1 x hx]
    · intro st rest
      rw [List.cons_append, List.append_assoc, List.cons_append, List.append_assoc, List.cons_append, preproc.eq_def]
      simp only [hc]
      rw [a2, preproc.eq_def]
      simp only [hs', Bool.false_eq_true, if_false]
      by_cases hs : st.all (·.on) = true
      · rw [if_pos hs]
        cases hv : ev out c
        · rw [hv] at l2
          have e1 := b2 (⟨true, true, true⟩ :: st) (e :: (ls ++ rest))
          rw [preproc.eq_def (st := ⟨true, true, true⟩ :: st)] at e1
          simp only [he, hs, List.all_cons, Bool.true_and, Bool.and_true, Bool.false_and, Bool.false_eq_true, if_false, if_true, Bool.not_false] at e1 ⊢
          rw [b2, preproc.eq_def]
          simpa [he, hs] using l2 st rest
        · rw [hv] at l2
          simp only [hs, List.all_cons, Bool.true_and, Bool.and_true, if_true, Bool.not_true]
          rw [b3, preproc.eq_def]
          simpa [he, hs] using l2 st rest
      · rw [if_neg hs]
        have hf : st.all (·.on) = false := by simpa using hs
        have := l3 st rest
        rw [if_neg hs] at this
        simp only [hf, List.all_cons, Bool.and_false, Bool.false_and, Bool.false_eq_true, if_false]
        rw [b2, preproc.eq_def]
        simpa [he, hf] using this

/-- A header without its first and its last line. -/
def headerBody (h : Line) (decls srcs : List Line) : List Line := (headerText h decls srcs).tail.dropLast

theorem headerBody_eq (h : Line) (decls srcs : List Line) : headerBody h decls srcs =
    (gDef ++ guardName h ++ [10#8]) :: ([[10#8]] ++ decls ++ headerMid ++ srcs.map srcLine ++ headerEnd) := by
  have : (headerText h decls srcs).tail = ((gDef ++ guardName h ++ [10#8]) :: ([[10#8]] ++ decls ++ headerMid ++ srcs.map srcLine ++ headerEnd)) ++ [[35, 101, 110, 100, 105, 102, 10]] := by
    simp [headerText, headerTop]
  rw [headerBody, this, List.dropLast_concat]

theorem headerText_eq (h : Line) (decls srcs : List Line) : headerText h decls srcs = (gIfn ++ guardName h ++ [10#8]) :: (headerBody h decls srcs ++ [[35, 101, 110, 100, 105, 102, 10]]) := by
  rw [headerBody_eq]
  simp [headerText, headerTop]

theorem body_balanced {decls : List Line} (hd : Balanced decls) (srcs : List Line) : Balanced ([[10#8]] ++ decls ++ headerMid ++ srcs.map srcLine ++ headerEnd) := by
  have e : [[10#8]] ++ decls ++ headerMid ++ srcs.map srcLine ++ headerEnd =
      [10#8] :: (decls ++ (headerMid.take 5 ++ ([35, 105, 102, 100, 101, 102, 32, 109, 105, 110, 105, 95, 73, 78, 67, 76, 85, 68, 69, 83, 82, 67, 10] :: (([[10#8]] ++ srcs.map srcLine ++ headerEnd.take 7) ++ [35, 101, 110, 100, 105, 102, 10] :: [[10#8]])))) := by
    simp [headerMid, headerEnd]
  rw [e]
  have p2 : ∀ l ∈ [[10#8]] ++ srcs.map srcLine ++ headerEnd.take 7, lineKind l = .other := by
    intro l hl
    rcases List.mem_append.1 hl with hl | hl
    · rcases List.mem_append.1 hl with hl | hl
      · rw [List.mem_singleton.1 hl]; rfl
      · obtain ⟨s, -, rfl⟩ := List.mem_map.1 hl
        exact srcLine_other s
    · exact (by decide +kernel : ∀ l ∈ headerEnd.take 7, lineKind l = .other) l hl
  refine Balanced.line rfl (balanced_append hd (balanced_append (balanced_plain (by decide +kernel)) (Balanced.group (by decide +kernel) (by decide +kernel) (balanced_plain p2) ?_)))
  exact Balanced.line rfl .nil

theorem body_noguard {decls : List Line} (hd : ∀ l ∈ decls, ¬ gDef <+: l) (srcs : List Line) :
    ∀ l ∈ [[10#8]] ++ decls ++ headerMid ++ srcs.map srcLine ++ headerEnd, ¬ gDef <+: l := by
  intro l hl
  simp only [List.mem_append, List.mem_singleton, List.mem_map] at hl
  rcases hl with (((rfl | hl) | hl) | ⟨s, -, rfl⟩) | hl
  · decide +kernel
  · exact hd l hl
  · exact (by decide +kernel : ∀ l ∈ headerMid, ¬ gDef <+: l) l hl
  · rintro ⟨t, e⟩
    have := congrArg (fun l : Line => l[1]?) e
    simp [srcLine] at this
  · exact (by decide +kernel : ∀ l ∈ headerEnd, ¬ gDef <+: l) l hl

/-- The guard is transparent the first time, and shuts afterwards. -/
theorem preproc_guarded {ev : List Line → Line → Bool} {v : Bool} (he : GuardWorth ev v) {decls srcs : List Line} (hd : Balanced decls) (h : Line) (out rest : List Line) :
    preproc ev out [] (headerText h decls srcs ++ rest) =
      if gDef ++ guardName h ++ [10#8] ∈ out then preproc ev out [] rest else preproc ev out [] (headerBody h decls srcs ++ rest) := by
  have hB : Balanced (headerBody h decls srcs) := by rw [headerBody_eq]; exact Balanced.line rfl (body_balanced hd srcs)
  obtain ⟨X, -, hX⟩ := preproc_balanced (ev := ev) hB out
  have k1 : lineKind (gIfn ++ guardName h ++ [10#8]) = .cond := rfl
  have k2 : lineKind [35, 101, 110, 100, 105, 102, 10] = .endif := by decide +kernel
  rw [headerText_eq, List.cons_append, List.append_assoc (headerBody h decls srcs), preproc]
  simp only [k1, List.all_nil, Bool.true_and]
  rw [hX, hX, List.singleton_append, preproc]
  simp only [k2]
  by_cases hin : gDef ++ guardName h ++ [10#8] ∈ out
  · have : ev out (gIfn ++ guardName h ++ [10#8]) = false := by
      cases hx : ev out (gIfn ++ guardName h ++ [10#8]) with
      | false => rfl
      | true => exact absurd hin ((he.1 out _).1 hx)
    rw [this, if_pos hin]; rfl
  · rw [(he.1 out _).2 hin, if_neg hin]; rfl

theorem includes_any {ev : List Line → Line → Bool} {v : Bool} (he : GuardWorth ev v) {decls srcs : Line → List Line} :
    ∀ (hs seen : List Line) (out : List Line), (∀ h ∈ hs, Balanced (decls h) ∧ ∀ l ∈ decls h, ¬ gDef <+: l) →
    (∀ h ∈ hs, ∀ h' ∈ seen ++ hs, Alike h h' → h = h') → (∀ h ∈ hs, gDef ++ guardName h ++ [10#8] ∈ out ↔ h ∈ seen) →
    preproc ev out [] (hs.flatMap (fun h => headerText h (decls h) (srcs h))) =
      preproc ev out [] ((onceEach seen hs).flatMap (fun h => headerBody h (decls h) (srcs h)))
  | [], seen, out, _, _, _ => by simp [onceEach]
  | h :: hs, seen, out, hd, ha, hi => by
    obtain ⟨hd1, hd2⟩ := hd h (by simp)
    rw [List.flatMap_cons, preproc_guarded he hd1, onceEach]
    by_cases hm : h ∈ seen
    · rw [if_pos ((hi h (by simp)).2 hm), if_pos hm]
      refine includes_any he hs seen out (fun x hx => hd x (by simp [hx])) (fun x hx y hy => ha x (by simp [hx]) y ?_) (fun x hx => hi x (by simp [hx]))
      simp only [List.mem_append, List.mem_cons] at hy ⊢
      rcases hy with h | h <;> simp [h]
    · rw [if_neg (fun e => hm ((hi h (by simp)).1 e)), if_neg hm, List.flatMap_cons]
      obtain ⟨X, hX1, hX2⟩ := preproc_balanced (ev := ev) (body_balanced hd1 (srcs h)) (out ++ [gDef ++ guardName h ++ [10#8]])
      have step : ∀ rest, preproc ev out [] (headerBody h (decls h) (srcs h) ++ rest) = preproc ev (out ++ (gDef ++ guardName h ++ [10#8]) :: X) [] rest := by
        intro rest
        have k : lineKind (gDef ++ guardName h ++ [10#8]) = .other := rfl
        rw [headerBody_eq, List.cons_append, preproc]
        simp only [k, List.all_nil, if_true]
        rw [hX2]
        simp
      rw [step, step]
      refine includes_any he hs (h :: seen) _ (fun x hx => hd x (by simp [hx])) (fun x hx y hy => ha x (by simp [hx]) y ?_) (fun x hx => ?_)
      · simp only [List.mem_append, List.mem_cons] at hy ⊢
        rcases hy with (h | h) | h <;> simp [h]
      · rw [List.mem_append, hi x (by simp [hx]), List.mem_cons, List.mem_cons]
        constructor
        · rintro (h1 | h1 | h1)
          · exact Or.inr h1
          · exact Or.inl (ha x (by simp [hx]) h (by simp) (guard_alike.1 (List.append_cancel_left (List.append_cancel_right h1))))
          · exact absurd ⟨guardName x ++ [10#8], by simp⟩ (body_noguard hd2 (srcs h) _ (hX1 _ h1))
        · rintro (rfl | h1)
          · exact Or.inr (Or.inl rfl)
          · exact Or.inl h1

/-- C121 (partial: names that are not alike; conditions without `#elif`): also with conditions among the declarations, on whatever has been defined,
including headers in any order and any number of times is the same as writing down the text of each one, without its guard, where it comes first. -/
theorem C121_any_partial {ev : List Line → Line → Bool} {v : Bool} (he : GuardWorth ev v) {decls srcs : Line → List Line} {hs : List Line}
    (hd : ∀ h ∈ hs, Balanced (decls h) ∧ ∀ l ∈ decls h, ¬ [35, 100, 101, 102, 105, 110, 101, 32, 105, 110, 99, 108, 117, 100, 101, 100, 95] <+: l)
    (ha : ∀ h ∈ hs, ∀ h' ∈ hs, Alike h h' → h = h') :
    preproc ev [] [] (hs.flatMap (fun h => headerText h (decls h) (srcs h))) =
      preproc ev [] [] ((onceEach [] hs).flatMap (fun h => headerBody h (decls h) (srcs h))) :=
  includes_any he hs [] [] hd (by simpa using ha) (by simp)

/-- C121, full statement: for all names. -/
def C121_full : Prop := ∀ (ev : List Line → Line → Bool) (v : Bool) (decls srcs : Line → List Line) (hs : List Line), GuardWorth ev v →
  (∀ h ∈ hs, Decls (decls h)) →
  preproc ev [] [] (hs.flatMap (fun h => headerText h (decls h) (srcs h))) =
    some ((onceEach [] hs).flatMap (fun h => headerShown v h (decls h) (srcs h)))

/-- C121: of two headers with names alike the second brings nothing. -/
theorem C121_alike_refuted {ev : List Line → Line → Bool} {v : Bool} (he : GuardWorth ev v) {decls srcs : Line → List Line} {h h' : Line}
    (hd : Decls (decls h)) (hd' : Decls (decls h')) (ha : Alike h h') :
    preproc ev [] [] (headerText h (decls h) (srcs h) ++ headerText h' (decls h') (srcs h')) = some (headerShown v h (decls h) (srcs h)) := by
  have e := preproc_header he (fun l hl => (hd' l hl).1) (srcs := srcs h') h' (headerShown v h (decls h) (srcs h)) []
  rw [List.append_nil] at e
  rw [preproc_header he (fun l hl => (hd l hl).1) h [] _, if_neg (by simp), List.nil_append, e, if_pos ((mem_shown hd).2 (guard_alike.2 ha).symm)]
  rfl

/-- The worth of conditions, computed. -/
def guardEv (v : Bool) (out : List Line) (l : Line) : Bool :=
  if gIfn <+: l then !out.contains (gDef ++ l.drop 17) else v

theorem guardEv_worth (v : Bool) : GuardWorth (guardEv v) v := by
  refine ⟨fun out g => ?_, fun out => ?_⟩
  · unfold guardEv
    rw [if_pos ⟨g ++ [10#8], by simp⟩]
    have : (gIfn ++ g ++ [10#8]).drop 17 = g ++ [10#8] := rfl
    rw [this]
    simp
  · unfold guardEv
    rw [if_neg (by decide +kernel)]

/-- C121 fails: sys/a.h and sys_a.h. -/
theorem C121_refuted : ¬ C121_full := by
  intro h
  have h1 := h (guardEv false) false (fun _ => []) (fun _ => []) [[115, 121, 115, 47, 97, 46, 104], [115, 121, 115, 95, 97, 46, 104]] (guardEv_worth _) (by intro h _ l hl; simp at hl)
  have h2 := C121_alike_refuted (guardEv_worth false) (decls := fun _ => []) (srcs := fun _ => []) (h := [115, 121, 115, 47, 97, 46, 104]) (h' := [115, 121, 115, 95, 97, 46, 104])
    (by intro l hl; simp at hl) (by intro l hl; simp at hl) (guard_alike.1 (by decide +kernel))
  rw [List.flatMap_cons, List.flatMap_cons, List.flatMap_nil, List.append_nil, h2] at h1
  exact absurd h1 (by decide +kernel)

/-- C121: a.h, b.h and a.h again, with a declaration each. -/
example : preproc (guardEv true) [] [] ([[97, 46, 104], [98, 46, 104], [97, 46, 104]].flatMap (fun h => headerText h [h ++ [59#8, 10#8]] [h])) =
    some ([[97, 46, 104], [98, 46, 104]].flatMap (fun h => headerShown true h [h ++ [59#8, 10#8]] [h])) :=
  C121_once_partial (guardEv_worth true) (decls := fun h => [h ++ [59#8, 10#8]]) (srcs := fun h => [h])
    (by unfold Decls; decide +kernel)
    (by simp only [← guard_alike]; decide +kernel)

/-- C121: a.h twice, with a declaration under a condition. -/
example : preproc (guardEv false) [] [] ([[97, 46, 104], [97, 46, 104]].flatMap (fun h => headerText h [[35, 105, 102, 100, 101, 102, 32, 109, 105, 110, 105, 95, 73, 78, 67, 76, 85, 68, 69, 83, 82, 67, 10], h ++ [10#8], [35, 101, 110, 100, 105, 102, 10]] [])) =
    preproc (guardEv false) [] [] ([[97, 46, 104]].flatMap (fun h => headerBody h [[35, 105, 102, 100, 101, 102, 32, 109, 105, 110, 105, 95, 73, 78, 67, 76, 85, 68, 69, 83, 82, 67, 10], h ++ [10#8], [35, 101, 110, 100, 105, 102, 10]] [])) :=
  C121_any_partial (guardEv_worth false) (decls := fun h => [[35, 105, 102, 100, 101, 102, 32, 109, 105, 110, 105, 95, 73, 78, 67, 76, 85, 68, 69, 83, 82, 67, 10], h ++ [10#8], [35, 101, 110, 100, 105, 102, 10]]) (srcs := fun _ => [])
    (by intro h hh
        have : h = [97, 46, 104] := by simpa using hh
        subst this
        exact ⟨Balanced.group (a := [_]) (by decide +kernel) (by decide +kernel) (balanced_plain (by decide +kernel)) .nil, by decide +kernel⟩)
    (by simp only [← guard_alike]; decide +kernel)

end Minilib

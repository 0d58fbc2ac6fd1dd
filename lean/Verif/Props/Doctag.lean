import Verif.Spec.Doctag
import Verif.Model.Doctag
/-
C120: the text of the comments in the documentation.
-/

set_option autoImplicit false

namespace Minilib

open _root_.Spec

theorem takeWhile_nl {x : Line} (t : Line) (h : 10#8 ∉ x) : (x ++ 10#8 :: t).takeWhile (· ≠ 10#8) = x := by
  induction x with
  | nil => rfl
  | cons b x ih =>
    simp only [List.mem_cons, not_or] at h
    rw [List.cons_append, List.takeWhile_cons, if_pos (by simpa using fun e => h.1 e.symm), ih h.2]

theorem docLoop_end {rest : List Line} (h : DocEnd rest) : docLoop rest = ([], rest) := by
  cases rest with
  | nil => rfl
  | cons l ls =>
    have := h l (by simp)
    rw [docLoop, if_neg]
    simp only [begins, List.isPrefixOf_iff_prefix, ← Bool.not_eq_true]
    exact fun e => e.2 (this e.1)

theorem docLoop_lines {xs rest : List Line} (hx : DocText xs) (h : DocEnd rest) :
    docLoop (xs.map docLine ++ rest) = (xs.flatMap (fun x => 10#8 :: x), rest) := by
  induction xs with
  | nil => exact docLoop_end h
  | cons x xs ih =>
    have hx0 := hx x (by simp)
    have h1 : begins [47, 47] (docLine x) = true := rfl
    have h2 : begins [47, 47, 43] (docLine x) = false := by
      unfold docLine begins
      cases x with
      | nil => rfl
      | cons b x =>
        have : ¬ b = 43#8 := by simpa using hx0.2
        simpa [List.isPrefixOf] using fun e => this e.symm
    have h3 : ((docLine x).drop 2).takeWhile (· ≠ 10#8) = x := by
      show ((x ++ [10#8]).takeWhile _) = x
      exact takeWhile_nl [] hx0.1
    rw [List.map_cons, List.cons_append, docLoop, if_pos ⟨h1, h2⟩, ih (fun y hy => hx y (by simp [hy])), h3]
    simp

theorem tagArg_head {c : Line} (hc : 10#8 ∉ c) : tagArg (docHead c) = if c = [] then [48#8] else c := by
  have e : (((docHead c).drop 3).dropWhile (fun b => !reSpace b)).drop 1 = c ++ [10#8] := rfl
  unfold tagArg
  rw [e, takeWhile_nl [] hc]
  by_cases h0 : c = []
  · simp [h0]
  · by_cases h1 : c = [48#8]
    · simp [h1]
    · simp [h0, h1]

theorem splitNl_one {x : Line} (hx : 10#8 ∉ x) : splitNl x = [x] := by
  induction x with
  | nil => rfl
  | cons b x ih =>
    simp only [List.mem_cons, not_or] at hx
    rw [splitNl, if_neg (fun e => hx.1 e.symm), ih hx.2]

theorem splitNl_front {x : Line} (t : Line) (hx : 10#8 ∉ x) : splitNl (x ++ 10#8 :: t) = x :: splitNl t := by
  induction x with
  | nil => rw [List.nil_append, splitNl, if_pos rfl]
  | cons b x ih =>
    simp only [List.mem_cons, not_or] at hx
    rw [List.cons_append, splitNl, if_neg (fun e => hx.1 e.symm), ih hx.2]

theorem splitNl_lines {xs : List Line} : ∀ {c : Line}, 10#8 ∉ c → (∀ x ∈ xs, 10#8 ∉ x) → splitNl (c ++ xs.flatMap (fun x => 10#8 :: x)) = c :: xs := by
  induction xs with
  | nil => intro c hc _; simpa using splitNl_one hc
  | cons x xs ih =>
    intro c hc h
    rw [List.flatMap_cons, List.cons_append, splitNl_front _ hc, ih (h x (by simp)) (fun y hy => h y (by simp [hy]))]

theorem dropWhile_all_append {l t : List Line} (h : ∀ x ∈ l, x.isEmpty = true) : (l ++ t).dropWhile List.isEmpty = t.dropWhile List.isEmpty := by
  induction l with
  | nil => rfl
  | cons x l ih => rw [List.cons_append, List.dropWhile_cons, if_pos (h x (by simp)), ih (fun y hy => h y (by simp [hy]))]

theorem noTail_nil {xs : List Line} : noTail xs = [] ↔ ∀ x ∈ xs, x = [] := by
  induction xs with
  | nil => simp [noTail]
  | cons x xs ih =>
    rw [noTail]
    split
    · rename_i h; simpa using ⟨h.1, ih.1 h.2⟩
    · rename_i h
      simp only [List.mem_cons, forall_eq_or_imp, reduceCtorEq, false_iff]
      exact fun e => h ⟨e.1, ih.2 e.2⟩

theorem dropWhile_append_some {l t : List Line} (h : ∃ x ∈ l, x ≠ []) : (l ++ t).dropWhile List.isEmpty = l.dropWhile List.isEmpty ++ t := by
  induction l with
  | nil => simp at h
  | cons x l ih =>
    rw [List.cons_append, List.dropWhile_cons, List.dropWhile_cons]
    split
    · rename_i hx
      apply ih
      obtain ⟨y, hy, hne⟩ := h
      rcases List.mem_cons.1 hy with rfl | hy
      · exact absurd (List.isEmpty_iff.1 hx) hne
      · exact ⟨y, hy, hne⟩
    · rfl

theorem dropEmptyEnd_noTail (xs : List Line) : dropEmptyEnd xs = noTail xs := by
  induction xs with
  | nil => rfl
  | cons x xs ih =>
    unfold dropEmptyEnd at *
    rw [List.reverse_cons, noTail]
    by_cases hn : noTail xs = []
    · rw [dropWhile_all_append (fun y hy => List.isEmpty_iff.2 (noTail_nil.1 hn y (List.mem_reverse.1 hy))), hn]
      by_cases hx : x = []
      · simp [hx]
      · rw [if_neg (fun e => hx e.1), List.dropWhile_cons, if_neg (by simpa using hx)]; rfl
    · rw [if_neg (fun e => hn e.2), dropWhile_append_some, List.reverse_append, ih]
      · rfl
      · refine Decidable.byContradiction fun e => hn (noTail_nil.2 fun y hy => Decidable.byContradiction fun hne => e ⟨y, List.mem_reverse.2 hy, hne⟩)

theorem joinWith_cons (sep x : Line) (xs : List Line) : joinWith sep (x :: xs) = x ++ xs.flatMap (fun y => sep ++ y) := by
  induction xs generalizing x with
  | nil => simp [joinWith]
  | cons y ys ih => rw [joinWith, ih]; simp

theorem docPrint_lines {c : Line} {xs : List Line} (hc : 10#8 ∉ c) (hx : ∀ x ∈ xs, 10#8 ∉ x) :
    docPrint (c ++ xs.flatMap (fun x => 10#8 :: x)) = docShown (c :: xs) := by
  unfold docPrint docShown
  rw [splitNl_lines hc hx, dropEmptyEnd_noTail]
  cases h : noTail (c :: xs) with
  | nil => rfl
  | cons y ys => rw [joinWith_cons]; simp

/-- C120 (partial: there is a text behind the tag): the documentation has the comment, line by line, and the reading goes on behind it. -/
theorem C120_text_partial {c : Line} {xs rest : List Line} (hc : c ≠ []) (hn : 10#8 ∉ c) (hx : DocText xs) (hr : DocEnd rest) :
    docPrint (docTag none (docHead c) (xs.map docLine ++ rest)).1 = docShown (c :: xs) ∧
    (docTag none (docHead c) (xs.map docLine ++ rest)).2 = rest := by
  unfold docTag
  rw [docLoop_lines hx hr, tagArg_head hn, if_neg hc]
  exact ⟨docPrint_lines hn (fun x h => (hx x h).1), rfl⟩

/-- C120: nothing is said in the line of the tag: the text begins with a line `0`. -/
theorem C120_zero_refuted {xs rest : List Line} (hx : DocText xs) (hr : DocEnd rest) :
    docPrint (docTag none (docHead []) (xs.map docLine ++ rest)).1 = docShown ([48#8] :: xs) ∧
    docPrint (docTag none [47, 47, 43, 100, 111, 99, 10] (xs.map docLine ++ rest)).1 = docShown ([48#8] :: xs) := by
  unfold docTag
  rw [docLoop_lines hx hr]
  refine ⟨?_, ?_⟩
  · exact docPrint_lines (c := [48#8]) (by decide) (fun x h => (hx x h).1)
  · exact docPrint_lines (c := [48#8]) (by decide) (fun x h => (hx x h).1)

/-- C120, full statement: whatever is said in the line of the tag, and with several comments. -/
def C120_full : Prop := ∀ (c : Line) (xs rest : List Line), 10#8 ∉ c → DocText xs → DocEnd rest →
  docPrint (docTag none (docHead c) (xs.map docLine ++ rest)).1 = docShown (if c = [] then xs else c :: xs)

/-- C120 fails for `//+doc` and the text in the next line, as in src/memory/malloc.c:49. -/
theorem C120_refuted : ¬ C120_full := by
  intro h
  have h1 := h [] [[97#8]] [] (by simp) (by unfold DocText; decide) (by intro l hl; simp at hl)
  rw [(C120_zero_refuted (by unfold DocText; decide) (by intro l hl; simp at hl)).1] at h1
  exact absurd h1 (by decide +kernel)

/-- C120 fails for a second comment of the same function: its first line is put behind the last line of the first one. -/
theorem C120_second_refuted {o c : Line} {xs rest : List Line} (hc : c ≠ []) (ho : 10#8 ∉ o) (hn : 10#8 ∉ c) (hx : DocText xs) (hr : DocEnd rest) :
    docPrint (docTag (some o) (docHead c) (xs.map docLine ++ rest)).1 = docShown ((o ++ c) :: xs) := by
  unfold docTag
  rw [docLoop_lines hx hr, tagArg_head hn, if_neg hc]
  refine docPrint_lines ?_ (fun x h => (hx x h).1)
  simp [ho, hn]

/-- C120: two lines, an empty one, and one more tag behind them. -/
example : docPrint (docTag none (docHead [97, 32, 98]) ([[32, 99], []].map docLine ++ [[47, 47, 43, 100, 101, 102, 10]])).1 =
    List.replicate 15 32#8 ++ [97, 32, 98, 10] ++ List.replicate 13 32#8 ++ [32, 99, 10] :=
  (C120_text_partial (by decide) (by decide) (by unfold DocText; decide) (by unfold DocEnd; decide +kernel)).1

/-- C120: the comment of malloc, and two comments. -/
example : (docPrint (docTag none [47, 47, 43, 100, 111, 99, 10] ([[97]].map docLine ++ [])).1 = docShown [[48], [97]]) ∧
    docPrint (docTag (some [97]) (docHead [98]) ([].map docLine ++ [])).1 = docShown [[97, 98]] :=
  ⟨(C120_zero_refuted (rest := []) (by unfold DocText; decide) (by intro l hl; simp at hl)).2,
    C120_second_refuted (xs := []) (rest := []) (by decide) (by decide) (by decide) (by unfold DocText; decide) (by intro l hl; simp at hl)⟩

end Minilib

import Verif.Spec.Headerof
/-
C124: functions and their headers.
-/

set_option autoImplicit false

namespace Minilib

open _root_.Spec

theorem regFile_sys (std : Line → Option Line) (es : List SrcItem) : ∀ (s : List Line) (h : Option Line) (f : Line),
    f ∈ (regFile std s h es).1 ↔ f ∈ s ∨ .func f true ∈ es := by
  induction es with
  | nil => intro s h f; simp [regFile]
  | cons e es ih =>
    intro s h f
    cases e with
    | header k => rw [regFile, ih]; simp
    | func g b =>
      rw [regFile]
      simp only [ih]
      cases b
      · simp
      · simp only [if_true, List.mem_cons, SrcItem.func.injEq, and_true]
        constructor
        · rintro ((e | e) | e)
          · exact Or.inr (Or.inl e)
          · exact Or.inl e
          · exact Or.inr (Or.inr e)
        · rintro (e | e | e)
          · exact Or.inl (Or.inr e)
          · exact Or.inl (Or.inl e)
          · exact Or.inr e

/-- The last tag, or the one from before. -/
def tagOr (h : Option Line) : List SrcItem → Option Line
  | [] => h
  | .header k :: es => tagOr (some k) es
  | .func _ _ :: es => tagOr h es

theorem regFile_mem (std : Line → Option Line) (es : List SrcItem) : ∀ (s : List Line) (h : Option Line) (k f : Line),
    (k, f) ∈ (regFile std s h es).2 ↔ f ≠ [] ∧ f ≠ [48#8] ∧ ∃ pre b post s', es = pre ++ .func f b :: post ∧
      (∀ g, g ∈ s' ↔ g ∈ s ∨ .func g true ∈ pre ++ [.func f b]) ∧ k = chooseHeader std s' (tagOr h pre) f := by
  induction es with
  | nil => intro s h k f; simp [regFile]
  | cons e es ih =>
    intro s h k f
    cases e with
    | header x =>
      rw [regFile, ih]
      constructor
      · rintro ⟨h1, h2, pre, b, post, s', rfl, hs, hk⟩
        exact ⟨h1, h2, .header x :: pre, b, post, s', rfl, by simpa using hs, hk⟩
      · rintro ⟨h1, h2, pre, b, post, s', e, hs, hk⟩
        cases pre with
        | nil => cases e
        | cons p pre =>
          injection e with e1 e2
          subst e1
          exact ⟨h1, h2, pre, b, post, s', e2, by simpa using hs, hk⟩
    | func g c =>
      rw [regFile]
      have step : ∀ y, y ∈ (if c then g :: s else s) ↔ y ∈ s ∨ .func y true = SrcItem.func g c := by
        intro y
        cases c
        · simp
        · simp [or_comm]
      have split : (k, f) ∈ (regFile std (if c then g :: s else s) h es).2 ↔ f ≠ [] ∧ f ≠ [48#8] ∧ ∃ pre b post s', es = pre ++ .func f b :: post ∧
          (∀ y, y ∈ s' ↔ y ∈ s ∨ .func y true ∈ (.func g c :: pre) ++ [.func f b]) ∧ k = chooseHeader std s' (tagOr h (.func g c :: pre)) f := by
        rw [ih]
        constructor
        · rintro ⟨h1, h2, pre, b, post, s', e, hs, hk⟩
          refine ⟨h1, h2, pre, b, post, s', e, fun y => ?_, hk⟩
          rw [hs, step, List.cons_append, List.mem_cons, or_assoc]
        · rintro ⟨h1, h2, pre, b, post, s', e, hs, hk⟩
          refine ⟨h1, h2, pre, b, post, s', e, fun y => ?_, hk⟩
          rw [hs, step, List.cons_append, List.mem_cons, or_assoc]
      have first : ∀ s', (∀ y, y ∈ s' ↔ y ∈ s ∨ .func y true = SrcItem.func g c) → chooseHeader std s' h g = chooseHeader std (if c then g :: s else s) h g := by
        intro s' hs
        have : (g ∈ s') = (g ∈ (if c then g :: s else s)) := propext ((hs g).trans (step g).symm)
        unfold chooseHeader
        simp only [this]
      constructor
      · intro hm
        have : ((k, f) = (chooseHeader std (if c then g :: s else s) h g, g) ∧ ¬ (g = [] ∨ g = [48#8])) ∨ (k, f) ∈ (regFile std (if c then g :: s else s) h es).2 := by
          by_cases hg : g = [] ∨ g = [48#8]
          · simp only [if_pos hg] at hm; exact Or.inr hm
          · simp only [if_neg hg, List.mem_cons] at hm
            exact hm.imp (fun e => ⟨e, hg⟩) id
        rcases this with ⟨e, hg⟩ | hm
        · injection e with e1 e2
          subst e1 e2
          refine ⟨fun e => hg (Or.inl e), fun e => hg (Or.inr e), [], c, es, _, rfl, ?_, rfl⟩
          intro y
          rw [step]
          simp
        · obtain ⟨h1, h2, pre, b, post, s', e, hs, hk⟩ := split.mp hm
          exact ⟨h1, h2, .func g c :: pre, b, post, s', by rw [e]; rfl, hs, hk⟩
      · rintro ⟨h1, h2, pre, b, post, s', e, hs, hk⟩
        cases pre with
        | nil =>
          injection e with e1 e2
          injection e1 with e3 e4
          subst e3 e4
          have hg : ¬ (g = [] ∨ g = [48#8]) := fun e => e.elim h1 h2
          simp only [if_neg hg, List.mem_cons]
          refine Or.inl ?_
          rw [hk, ← first s' (fun y => by rw [hs]; simp)]
          rfl
        | cons p pre =>
          injection e with e1 e2
          subst e1
          have := split.mpr ⟨h1, h2, pre, b, post, s', e2, hs, hk⟩
          by_cases hg : g = [] ∨ g = [48#8]
          · simp only [if_pos hg]; exact this
          · simp only [if_neg hg]; exact List.mem_cons_of_mem _ this

theorem tagOr_none {pre : List SrcItem} : ∀ {h : Option Line}, (∀ x, .header x ∉ pre) → tagOr h pre = h := by
  induction pre with
  | nil => intro h _; rfl
  | cons e es ih =>
    intro h hx
    cases e with
    | header k => exact absurd List.mem_cons_self (hx k)
    | func f b => exact ih (fun x hm => hx x (List.mem_cons_of_mem _ hm))

theorem tagOr_last {a b : List SrcItem} {k : Line} (hb : ∀ x, .header x ∉ b) : ∀ {h : Option Line}, tagOr h (a ++ .header k :: b) = some k := by
  induction a with
  | nil => intro h; rw [List.nil_append, tagOr, tagOr_none hb]
  | cons e es ih =>
    intro h
    cases e with
    | header x => exact ih
    | func f c => exact ih

theorem tag_or_not (pre : List SrcItem) : (∀ x, .header x ∉ pre) ∨ ∃ k, LastTag pre k := by
  induction pre with
  | nil => exact Or.inl (fun x hx => by simp at hx)
  | cons e es ih =>
    rcases ih with h | ⟨k, a, b, rfl, hb⟩
    · cases e with
      | header k => exact Or.inr ⟨k, [], es, rfl, h⟩
      | func f c => exact Or.inl (fun x hx => by
          rcases List.mem_cons.mp hx with hx | hx
          · cases hx
          · exact h x hx)
    · exact Or.inr ⟨k, e :: a, b, rfl, hb⟩

theorem choose_belongs {std : Line → Option Line} {old pre : List SrcItem} {f : Line} {b : Bool} {s : List Line} {k : Line}
    (hs : f ∈ s ↔ .func f true ∈ old ++ pre ++ [.func f b]) : k = chooseHeader std s (tagOr none pre) f ↔ Belongs std old pre f b k := by
  unfold chooseHeader Belongs
  cases e : std f with
  | some x => simp [eq_comm]
  | none =>
    rcases tag_or_not pre with hn | ⟨y, a, c, rfl, hc⟩
    · rw [tagOr_none hn]
      have hl : ¬ LastTag pre k := by
        rintro ⟨a, c, rfl, -⟩
        exact hn k (by simp)
      by_cases hm : f ∈ s
      · have := hs.mp hm
        simp only [if_pos hm]
        simp only [hl, hn, this]
        simp
      · have : ¬ _ := fun h => hm (hs.mpr h)
        simp only [if_neg hm]
        simp only [hl, hn, this]
        simp
    · rw [tagOr_last hc]
      have hn : ¬ ∀ x, SrcItem.header x ∉ a ++ .header y :: c := fun h => h y (by simp)
      simp only [hn, false_and, and_false, or_false, true_and, reduceCtorEq, false_or]
      constructor
      · rintro rfl; exact ⟨a, c, rfl, hc⟩
      · rintro ⟨a', c', e', hc'⟩
        have h1 := tagOr_last (a := a) (k := y) hc (h := none)
        rw [e', tagOr_last hc'] at h1
        exact Option.some.inj h1

theorem regFiles_mem (std : Line → Option Line) (fs : List (List SrcItem)) : ∀ (s : List Line) (old : List SrcItem) (k f : Line),
    (∀ g, g ∈ s ↔ .func g true ∈ old) → ((k, f) ∈ regFiles std s fs ↔ f ≠ [] ∧ f ≠ [48#8] ∧ ∃ before pre b post behind,
      fs = before ++ (pre ++ .func f b :: post) :: behind ∧ Belongs std (old ++ before.flatten) pre f b k) := by
  induction fs with
  | nil => intro s old k f _; simp [regFiles]
  | cons x fs ih =>
    intro s old k f hs
    have hs2 : ∀ g, g ∈ (regFile std s none x).1 ↔ .func g true ∈ old ++ x := by
      intro g
      rw [regFile_sys, hs, List.mem_append]
    rw [regFiles, List.mem_append, ih _ (old ++ x) k f hs2, regFile_mem]
    constructor
    · rintro (⟨h1, h2, pre, b, post, s', rfl, hm, hk⟩ | ⟨h1, h2, before, pre, b, post, behind, rfl, hb⟩)
      · refine ⟨h1, h2, [], pre, b, post, fs, rfl, ?_⟩
        rw [List.flatten_nil, List.append_nil]
        refine (choose_belongs ?_).mp hk
        rw [hm, hs, List.append_assoc, List.mem_append (s := old)]
      · exact ⟨h1, h2, x :: before, pre, b, post, behind, rfl, by rw [List.flatten_cons, ← List.append_assoc]; exact hb⟩
    · rintro ⟨h1, h2, before, pre, b, post, behind, e, hb⟩
      cases before with
      | nil =>
        injection e with e1 e2
        refine Or.inl ⟨h1, h2, pre, b, post, (if f ∈ s then s else s) ++ ((pre ++ [SrcItem.func f b]).filterMap (fun i : SrcItem => match i with | .func g true => some g | _ => none)), e1, ?_, ?_⟩
        · intro g
          rw [ite_self, List.mem_append, List.mem_filterMap]
          refine or_congr Iff.rfl ⟨?_, fun h => ⟨_, h, rfl⟩⟩
          rintro ⟨i, hi, hg⟩
          split at hg
          · cases hg; exact hi
          · cases hg
        · refine (choose_belongs (old := old) ?_).mpr (by rw [List.flatten_nil, List.append_nil] at hb; exact hb)
          rw [ite_self, List.mem_append, hs, List.append_assoc, List.mem_append (s := old), List.mem_filterMap]
          refine or_congr Iff.rfl ⟨?_, fun h => ⟨_, h, rfl⟩⟩
          rintro ⟨i, hi, hg⟩
          split at hg
          · cases hg; exact hi
          · cases hg
      | cons y before =>
        injection e with e1 e2
        subst e1
        exact Or.inr ⟨h1, h2, before, pre, b, post, behind, e2, by rw [List.flatten_cons, ← List.append_assoc] at hb; exact hb⟩

/-- C124: a function is listed in a header exactly if it is found in some file at a place where it belongs to this header. -/
theorem C124_exact {std : Line → Option Line} {fs : List (List SrcItem)} {k f : Line} : (k, f) ∈ regFiles std [] fs ↔ f ≠ [] ∧ f ≠ [48#8] ∧
    ∃ before pre b post behind, fs = before ++ (pre ++ .func f b :: post) :: behind ∧ Belongs std before.flatten pre f b k := by
  have := regFiles_mem std fs [] [] k f (fun g => by simp)
  simpa only [List.nil_append] using this

/-- C124: a function of the standard is in its header only, whatever the tags are, and wherever and how often it is defined. -/
theorem C124_standard {std : Line → Option Line} {fs : List (List SrcItem)} {k h f : Line} (hf : std f = some h) (hm : (k, f) ∈ regFiles std [] fs) : k = h := by
  obtain ⟨-, -, before, pre, b, post, behind, -, hb⟩ := C124_exact.mp hm
  rcases hb with hb | hb | hb
  · rw [hf] at hb; exact (Option.some.inj hb).symm
  · rw [hf] at hb; cases hb.1
  · rw [hf] at hb; cases hb.1

/-- C124: every function that is found is listed. -/
theorem C124_listed {std : Line → Option Line} {fs : List (List SrcItem)} {f : Line} {b : Bool} {es : List SrcItem} (h0 : f ≠ []) (h1 : f ≠ [48#8]) (he : es ∈ fs) (hf : .func f b ∈ es) :
    ∃ k, (k, f) ∈ regFiles std [] fs := by
  obtain ⟨before, behind, rfl⟩ := List.append_of_mem he
  obtain ⟨pre, post, rfl⟩ := List.append_of_mem hf
  have : ∃ k, Belongs std before.flatten pre f b k := by
    cases e : std f with
    | some k => exact ⟨k, Or.inl e⟩
    | none =>
      rcases tag_or_not pre with hn | ⟨k, hk⟩
      · by_cases hm : SrcItem.func f true ∈ before.flatten ++ pre ++ [.func f b]
        · exact ⟨_, Or.inr (Or.inr ⟨e, hn, Or.inl ⟨hm, rfl⟩⟩)⟩
        · exact ⟨_, Or.inr (Or.inr ⟨e, hn, Or.inr ⟨hm, rfl⟩⟩)⟩
      · exact ⟨k, Or.inr (Or.inl ⟨e, hk⟩)⟩
  obtain ⟨k, hk⟩ := this
  exact ⟨k, C124_exact.mpr ⟨h0, h1, before, pre, b, post, behind, rfl, hk⟩⟩

theorem regFile_count (std : Line → Option Line) (f : Line) (es : List SrcItem) : ∀ (s : List Line) (h : Option Line),
    (regFile std s h es).2.countP (fun p => p.2 = f) ≤ defined f es := by
  induction es with
  | nil => intro s h; simp [regFile]
  | cons e es ih =>
    intro s h
    cases e with
    | header k =>
      rw [regFile]
      have := ih s (some k)
      simpa [defined] using this
    | func g b =>
      rw [regFile]
      have := ih (if b then g :: s else s) h
      unfold defined at this ⊢
      rw [List.countP_cons]
      by_cases hg : g = [] ∨ g = [48#8]
      · simp only [if_pos hg]
        omega
      · simp only [if_neg hg]
        rw [List.countP_cons]
        simp only
        omega

theorem regFiles_count (std : Line → Option Line) (f : Line) (fs : List (List SrcItem)) : ∀ s : List Line,
    (regFiles std s fs).countP (fun p => p.2 = f) ≤ defined f fs.flatten := by
  induction fs with
  | nil => intro s; simp [regFiles]
  | cons x fs ih =>
    intro s
    have h1 := ih (regFile std s none x).1
    have h2 := regFile_count std f x s none
    unfold defined at h1 h2 ⊢
    rw [regFiles, List.flatten_cons, List.countP_append, List.countP_append]
    omega

theorem countP_one {α : Type} {p : α → Bool} {L : List α} {a b : α} (h : L.countP p ≤ 1) (ha : a ∈ L) (hb : b ∈ L) (pa : p a = true) (pb : p b = true) : a = b := by
  induction L with
  | nil => simp at ha
  | cons x L ih =>
    rw [List.countP_cons] at h
    have pos : ∀ {y}, y ∈ L → p y = true → 0 < L.countP p := fun hy py => List.countP_pos_iff.mpr ⟨_, hy, py⟩
    rcases List.mem_cons.mp ha with e1 | ha <;> rcases List.mem_cons.mp hb with e2 | hb
    · rw [e1, e2]
    · have := pos hb pb
      rw [e1] at pa
      rw [if_pos pa] at h
      omega
    · have := pos ha pa
      rw [e2] at pb
      rw [if_pos pb] at h
      omega
    · exact ih (by omega) ha hb

/-- C124: a function that is defined once is in one header. Missing: functions with several definitions, for which it fails. -/
theorem C124_one_partial {std : Line → Option Line} {fs : List (List SrcItem)} {k l f : Line} (h : defined f fs.flatten ≤ 1)
    (hk : (k, f) ∈ regFiles std [] fs) (hl : (l, f) ∈ regFiles std [] fs) : k = l :=
  congrArg Prod.fst (countP_one (Nat.le_trans (regFiles_count std f fs []) h) hk hl (by simp) (by simp))

/-- C124: every function is in one header. -/
def C124_full : Prop := ∀ (std : Line → Option Line) (fs : List (List SrcItem)) (k l f : Line), (k, f) ∈ regFiles std [] fs → (l, f) ∈ regFiles std [] fs → k = l

/-- C124 fails for functions that are defined twice, under different tags: the reference has them twice, as `tcgetattr` in mini_addons.h and
unistd.h (doc/minilib.txt:1800, 3242). -/
theorem C124_twice_refuted {std : Line → Option Line} {f k l : Line} (hf : std f = none) (h0 : f ≠ []) (h1 : f ≠ [48#8]) :
    (k, f) ∈ regFiles std [] [[.header k, .func f false], [.header l, .func f false]] ∧ (l, f) ∈ regFiles std [] [[.header k, .func f false], [.header l, .func f false]] :=
  ⟨C124_exact.mpr ⟨h0, h1, [], [.header k], false, [], _, rfl, Or.inr (Or.inl ⟨hf, [], [], rfl, by simp⟩)⟩,
    C124_exact.mpr ⟨h0, h1, [[.header k, .func f false]], [.header l], false, [], [], rfl, Or.inr (Or.inl ⟨hf, [], [], rfl, by simp⟩)⟩⟩

theorem C124_refuted : ¬ C124_full := by
  intro h
  have e := C124_twice_refuted (std := fun _ => none) (f := [102]) (k := [97]) (l := [98]) rfl (by decide) (by decide)
  exact absurd (h _ _ _ _ _ e.1 e.2) (by decide)

/-- C124: `puts` in stdio.h by the standard, although the tag says a.h; `f` behind the same tag in a.h; `g` in another file in mini_addons.h, `h` in mini_syscalls. -/
example : regFiles (fun f => if f = [112, 117, 116, 115] then some [115, 116, 100, 105, 111, 46, 104] else none) [] [[.header [97, 46, 104], .func [112, 117, 116, 115] false, .func [102] false], [.func [103] false, .func [104] true]] =
    [([115, 116, 100, 105, 111, 46, 104], [112, 117, 116, 115]), ([97, 46, 104], [102]), ([109, 105, 110, 105, 95, 97, 100, 100, 111, 110, 115, 46, 104], [103]), ([109, 105, 110, 105, 95, 115, 121, 115, 99, 97, 108, 108, 115], [104])] := by
  decide +kernel

end Minilib

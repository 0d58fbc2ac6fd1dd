import Verif.Spec.Preproc
/-
C110: `#if 0` parts are taken out of the header without changing it for the compiler.
-/

set_option autoImplicit false

namespace Minilib
open Spec

theorem begins_iff {p l : Line} : begins p l = true ↔ p <+: l := by unfold begins; exact List.isPrefixOf_iff_prefix

theorem if0_if {l : Line} (h : reIf0 <+: l) : reIf <+: l := List.IsPrefix.trans (by decide) h

theorem dead_all {fs st : List PGroup} {g : PGroup} (hg : g.on = false) : (fs ++ g :: st).all (·.on) = false := by
  simp [hg]

theorem strip_preproc {ev : List Line → Line → Bool} (hev : Worth ev) {o : List Line} : ∀ (ls : List Line),
    (∀ l ∈ ls, Flush l) → (∀ l ∈ ls, reIf0 <+: l → zeroLine l) →
    (∀ (out : List Line) (st : List PGroup) (bst : List Bool), preproc ev out st ls = some o → NoElse bst ls →
      ∃ r, stripUndefs 0 ls = .ok r ∧ preproc ev out st r = some o) ∧
    (∀ (out : List Line) (fs st : List PGroup) (bs bst : List Bool), fs.length = bs.length →
      preproc ev out (fs ++ ⟨false, false, false⟩ :: st) ls = some o → NoElse (bs ++ true :: bst) ls →
      ∃ r, stripUndefs (fs.length + 1) ls = .ok r ∧ preproc ev out st r = some o) := by
  intro ls
  induction ls with
  | nil =>
    intro _ _
    refine ⟨fun out st _ h _ => ⟨[], rfl, h⟩, fun out fs st bs bst _ h _ => ?_⟩
    simp [preproc] at h
  | cons l ls ih =>
    intro hf hz
    obtain ⟨ihP, ihQ⟩ := ih (fun x hx => hf x (List.mem_cons_of_mem _ hx)) (fun x hx => hz x (List.mem_cons_of_mem _ hx))
    obtain ⟨fc, fe⟩ := hf l (List.mem_cons_self ..)
    have hz0 := hz l (List.mem_cons_self ..)
    refine ⟨fun out st bst h hn => ?_, fun out fs st bs bst hl h hn => ?_⟩
    · -- the outer loop
      by_cases h0 : reIf0 <+: l
      · have hk : lineKind l = .cond := fc.2 (if0_if h0)
        have hw : ev out l = false := hev out l (hz0 h0)
        simp only [preproc, hk, hw, Bool.and_false] at h
        simp only [NoElse, hk] at hn
        rw [show decide ([35#8, 105#8, 102#8, 32#8, 48#8] <+: l) = true from decide_eq_true h0] at hn
        obtain ⟨r, h1, h2⟩ := ihQ out [] st [] bst rfl h hn
        exact ⟨r, by simp only [stripUndefs, begins_iff.2 h0, if_true]; exact h1, h2⟩
      · have hb : begins reIf0 l = false := by
          cases hb : begins reIf0 l
          · rfl
          · exact absurd (begins_iff.1 hb) h0
        have key : ∀ out' st' bst', preproc ev out st (l :: ls) = preproc ev out' st' ls →
            (∀ r, preproc ev out st (l :: r) = preproc ev out' st' r) → NoElse bst' ls →
            ∃ r, stripUndefs 0 (l :: ls) = .ok r ∧ preproc ev out st r = some o := by
          intro out' st' bst' e1 e2 hn'
          obtain ⟨r, h1, h2⟩ := ihP out' st' bst' (by rw [← e1]; exact h) hn'
          refine ⟨l :: r, ?_, by rw [e2]; exact h2⟩
          simp only [stripUndefs, hb, Bool.false_eq_true, if_false]
          rw [h1]; rfl
        cases hk : lineKind l with
        | cond =>
          simp only [NoElse, hk] at hn
          exact key out (⟨st.all (·.on) && ev out l, st.all (·.on) && ev out l, false⟩ :: st) _ (by simp only [preproc, hk]) (fun r => by simp only [preproc, hk]) hn
        | elif =>
          simp only [NoElse, hk] at hn
          cases st with
          | nil => simp [preproc, hk] at h
          | cons g st =>
            by_cases hg : g.last = true
            · simp [preproc, hk, hg] at h
            · exact key out (⟨!g.taken && st.all (·.on) && ev out l, g.taken || (!g.taken && st.all (·.on) && ev out l), false⟩ :: st) _ (by simp only [preproc, hk]; rw [if_neg hg]) (fun r => by simp only [preproc, hk]; rw [if_neg hg]) hn.2
        | els =>
          simp only [NoElse, hk] at hn
          cases st with
          | nil => simp [preproc, hk] at h
          | cons g st =>
            by_cases hg : g.last = true
            · simp [preproc, hk, hg] at h
            · exact key out (⟨!g.taken, true, true⟩ :: st) _ (by simp only [preproc, hk]; rw [if_neg hg]) (fun r => by simp only [preproc, hk]; rw [if_neg hg]) hn.2
        | endif =>
          simp only [NoElse, hk] at hn
          cases st with
          | nil => simp [preproc, hk] at h
          | cons g st => exact key out st _ (by simp only [preproc, hk]) (fun r => by simp only [preproc, hk]) hn
        | other =>
          simp only [NoElse, hk] at hn
          exact key (if st.all (·.on) then out ++ [l] else out) st _ (by simp only [preproc, hk]) (fun r => by simp only [preproc, hk]) hn
    · -- the inner loop
      have hd : (fs ++ ⟨false, false, false⟩ :: st).all (·.on) = false := dead_all rfl
      have hne : begins reEndif l = true ↔ lineKind l = .endif := begins_iff.trans fe.symm
      have hnc : begins reIf l = true ↔ lineKind l = .cond := begins_iff.trans fc.symm
      cases hk : lineKind l with
      | endif =>
        rw [stripUndefs, if_pos (hne.2 hk)]
        simp only [NoElse, hk] at hn
        cases fs with
        | nil =>
          cases bs with
          | cons => simp at hl
          | nil =>
            simp only [preproc, hk, List.nil_append] at h
            exact ihP out st bst h hn
        | cons f fs =>
          cases bs with
          | nil => simp at hl
          | cons b bs =>
            simp only [preproc, hk, List.cons_append] at h
            exact ihQ out fs st bs bst (by simpa using hl) h hn
      | cond =>
        rw [stripUndefs, if_neg (by rw [hne, hk]; simp), if_pos (hnc.2 hk)]
        simp only [NoElse, hk] at hn
        simp only [preproc, hk, hd, Bool.false_and] at h
        exact ihQ out (⟨false, false, false⟩ :: fs) st (_ :: bs) bst (by simpa using hl) h hn
      | elif =>
        rw [stripUndefs, if_neg (by rw [hne, hk]; simp), if_neg (by rw [hnc, hk]; simp)]
        simp only [NoElse, hk] at hn
        cases fs with
        | nil =>
          cases bs with
          | cons => simp at hl
          | nil => exact absurd hn.1 (by simp)
        | cons f fs =>
          by_cases hg : f.last = true
          · simp [preproc, hk, hg] at h
          · simp only [preproc, hk, List.cons_append] at h
            rw [if_neg hg] at h
            exact ihQ out (⟨!f.taken && (fs ++ ⟨false, false, false⟩ :: st).all (·.on) && ev out l, f.taken || (!f.taken && (fs ++ ⟨false, false, false⟩ :: st).all (·.on) && ev out l), false⟩ :: fs) st bs bst (by simpa using hl) h hn.2
      | els =>
        rw [stripUndefs, if_neg (by rw [hne, hk]; simp), if_neg (by rw [hnc, hk]; simp)]
        simp only [NoElse, hk] at hn
        cases fs with
        | nil =>
          cases bs with
          | cons => simp at hl
          | nil => exact absurd hn.1 (by simp)
        | cons f fs =>
          by_cases hg : f.last = true
          · simp [preproc, hk, hg] at h
          · simp only [preproc, hk, List.cons_append] at h
            rw [if_neg hg] at h
            exact ihQ out (⟨!f.taken, true, true⟩ :: fs) st bs bst (by simpa using hl) h hn.2
      | other =>
        rw [stripUndefs, if_neg (by rw [hne, hk]; simp), if_neg (by rw [hnc, hk]; simp)]
        simp only [NoElse, hk] at hn
        simp only [preproc, hk, hd, Bool.false_eq_true, if_false] at h
        exact ihQ out fs st bs bst hl h hn

/-- C110 (partial: no `#else` or `#elif` of an `#if 0`, nothing but 0 behind `#if 0`, directives without blanks around the `#`): for every
well-formed text and whatever the other conditions are worth, the script ends, and the compiler sees the same lines. -/
theorem C110_same_partial {ev : List Line → Line → Bool} (hev : Worth ev) {ls o : List Line} (h : preproc ev [] [] ls = some o)
    (hf : ∀ l ∈ ls, Flush l) (hz : ∀ l ∈ ls, reIf0 <+: l → zeroLine l) (hn : NoElse [] ls) :
    ∃ r, stripUndefs 0 ls = .ok r ∧ preproc ev [] [] r = some o :=
  (strip_preproc hev ls hf hz).1 [] [] [] h hn

/-- C110: whatever the text, no `#if 0` is left, and no line is new or moved. -/
theorem C110_gone : ∀ (ls : List Line) (c : Nat) {r : List Line}, stripUndefs c ls = .ok r →
    (∀ l ∈ r, ¬ [35#8, 105#8, 102#8, 32#8, 48#8] <+: l) ∧ r.Sublist ls
  | [], 0, r, h => by
    simp only [stripUndefs, Res.ok.injEq] at h
    subst h; simp
  | [], _ + 1, r, h => by simp [stripUndefs] at h
  | l :: ls, 0, r, h => by
    simp only [stripUndefs] at h
    split at h
    · obtain ⟨h1, h2⟩ := C110_gone ls 1 h
      exact ⟨h1, h2.cons _⟩
    · rename_i hb
      cases hs : stripUndefs 0 ls with
      | ub => rw [hs] at h; cases h
      | div => rw [hs] at h; cases h
      | ok r' =>
        rw [hs] at h
        simp only [Res.ok_bind, Res.pure_eq, Res.ok.injEq] at h
        subst h
        obtain ⟨h1, h2⟩ := C110_gone ls 0 hs
        refine ⟨fun x hx => ?_, h2.cons_cons _⟩
        rcases List.mem_cons.1 hx with rfl | hx
        · exact fun e => hb (begins_iff.2 e)
        · exact h1 x hx
  | l :: ls, c + 1, r, h => by
    simp only [stripUndefs] at h
    split at h
    · obtain ⟨h1, h2⟩ := C110_gone ls c h
      exact ⟨h1, h2.cons _⟩
    · split at h
      · obtain ⟨h1, h2⟩ := C110_gone ls (c + 2) h
        exact ⟨h1, h2.cons _⟩
      · obtain ⟨h1, h2⟩ := C110_gone ls (c + 1) h
        exact ⟨h1, h2.cons _⟩

/-- C110: a text without `#if 0` stays as it is. -/
theorem C110_unchanged : ∀ {ls : List Line}, (∀ l ∈ ls, ¬ [35#8, 105#8, 102#8, 32#8, 48#8] <+: l) → stripUndefs 0 ls = .ok ls
  | [], _ => rfl
  | l :: ls, h => by
    have hb : ¬ begins reIf0 l = true := fun e => h l (List.mem_cons_self ..) (begins_iff.1 e)
    rw [stripUndefs, if_neg hb, C110_unchanged (fun x hx => h x (List.mem_cons_of_mem _ hx))]
    rfl

/-- C110: a part that is not ended keeps the script busy for ever. -/
theorem C110_endless_refuted : ∀ {ls : List Line} (c : Nat), (∀ l ∈ ls, ¬ [35#8, 101#8, 110#8, 100#8, 105#8, 102#8] <+: l) →
    stripUndefs (c + 1) ls = .div
  | [], _, _ => rfl
  | l :: ls, c, h => by
    have hb : ¬ begins reEndif l = true := fun e => h l (List.mem_cons_self ..) (begins_iff.1 e)
    have h' : ∀ x ∈ ls, ¬ [35#8, 101#8, 110#8, 100#8, 105#8, 102#8] <+: x := fun x hx => h x (List.mem_cons_of_mem _ hx)
    rw [stripUndefs, if_neg hb]
    split
    · exact C110_endless_refuted (c + 1) h'
    · exact C110_endless_refuted c h'

/-- C110, full statement: every well-formed text. -/
def C110_full : Prop :=
  ∀ (ev : List Line → Line → Bool) (ls o : List Line), Worth ev → preproc ev [] [] ls = some o →
    ∃ r, stripUndefs 0 ls = .ok r ∧ preproc ev [] [] r = some o

/-- `#if 0`, `a`, `#else`, `b`, `#endif`. -/
def elseText : List Line :=
  [[35#8, 105#8, 102#8, 32#8, 48#8, 10#8], [97#8, 10#8], [35#8, 101#8, 108#8, 115#8, 101#8, 10#8], [98#8, 10#8],
   [35#8, 101#8, 110#8, 100#8, 105#8, 102#8, 10#8]]

/-- C110 fails: the part behind `#else` is lost. -/
theorem C110_else_refuted : ¬ C110_full := by
  intro h
  obtain ⟨r, h1, h2⟩ := h (fun _ _ => false) elseText [[98#8, 10#8]] (fun _ _ _ => rfl) (by decide +kernel)
  have h3 : stripUndefs 0 elseText = .ok [] := rfl
  rw [h3] at h1
  cases h1
  exact absurd h2 (by decide +kernel)

/-- C110 fails for conditions that only begin with 0, as `#if 0x1`: the part is taken out although it is meant. -/
theorem C110_prefix_refuted : ¬ C110_full := by
  intro h
  have hnz : ¬ zeroLine [35#8, 105#8, 102#8, 32#8, 48#8, 120#8, 49#8, 10#8] := by
    rintro ⟨r, h1, h2⟩
    simp only [List.cons_append, List.nil_append, List.cons.injEq, true_and] at h1
    subst h1
    exact absurd (h2 120#8 (by simp)) (by decide)
  obtain ⟨r, h1, h2⟩ := h (fun _ l => decide (l = [35#8, 105#8, 102#8, 32#8, 48#8, 120#8, 49#8, 10#8]))
    [[35#8, 105#8, 102#8, 32#8, 48#8, 120#8, 49#8, 10#8], [97#8, 10#8], [35#8, 101#8, 110#8, 100#8, 105#8, 102#8, 10#8]] [[97#8, 10#8]]
    (fun _ l hl => decide_eq_false fun e => hnz (e ▸ hl)) (by decide +kernel)
  have h3 : stripUndefs 0 [[35#8, 105#8, 102#8, 32#8, 48#8, 120#8, 49#8, 10#8], [97#8, 10#8], [35#8, 101#8, 110#8, 100#8, 105#8, 102#8, 10#8]]
      = .ok [] := rfl
  rw [h3] at h1
  cases h1
  exact absurd h2 (by decide +kernel)

/-- C110 fails for blanks in front of the `#`: ` #if A` inside is not counted, and its `#endif` ends the part. -/
theorem C110_blank_refuted : ¬ C110_full := by
  intro h
  obtain ⟨r, h1, h2⟩ := h (fun _ _ => false)
    [[35#8, 105#8, 102#8, 32#8, 48#8, 10#8], [32#8, 35#8, 105#8, 102#8, 32#8, 65#8, 10#8], [35#8, 101#8, 110#8, 100#8, 105#8, 102#8, 10#8], [97#8, 10#8],
     [35#8, 101#8, 110#8, 100#8, 105#8, 102#8, 10#8]] [] (fun _ _ _ => rfl) (by decide +kernel)
  have h3 : stripUndefs 0 [[35#8, 105#8, 102#8, 32#8, 48#8, 10#8], [32#8, 35#8, 105#8, 102#8, 32#8, 65#8, 10#8], [35#8, 101#8, 110#8, 100#8, 105#8, 102#8, 10#8], [97#8, 10#8],
     [35#8, 101#8, 110#8, 100#8, 105#8, 102#8, 10#8]] = .ok [[97#8, 10#8], [35#8, 101#8, 110#8, 100#8, 105#8, 102#8, 10#8]] := rfl
  rw [h3] at h1
  cases h1
  exact absurd h2 (by decide +kernel)

instance (l : Line) : Decidable (Flush l) := by unfold Flush; infer_instance

/-- `#ifdef A`, `x`, `#if 0`, `#ifdef B`, `y`, `#else`, `z`, `#endif`, `#endif`, `#else`, `w`, `#endif`. -/
def nestedText : List Line :=
  [[35#8, 105#8, 102#8, 100#8, 101#8, 102#8, 32#8, 65#8, 10#8], [120#8, 10#8], [35#8, 105#8, 102#8, 32#8, 48#8, 10#8],
   [35#8, 105#8, 102#8, 100#8, 101#8, 102#8, 32#8, 66#8, 10#8], [121#8, 10#8], [35#8, 101#8, 108#8, 115#8, 101#8, 10#8], [122#8, 10#8],
   [35#8, 101#8, 110#8, 100#8, 105#8, 102#8, 10#8], [35#8, 101#8, 110#8, 100#8, 105#8, 102#8, 10#8], [35#8, 101#8, 108#8, 115#8, 101#8, 10#8],
   [119#8, 10#8], [35#8, 101#8, 110#8, 100#8, 105#8, 102#8, 10#8]]

example : ∃ r, stripUndefs 0 nestedText = .ok r ∧ preproc (fun _ _ => false) [] [] r = some [[119#8, 10#8]] ∧ r.length = 5 := by
  obtain ⟨r, h1, h2⟩ := C110_same_partial (ev := fun _ _ => false) (fun _ _ _ => rfl) (ls := nestedText) (o := [[119#8, 10#8]])
    (by decide +kernel) (by decide +kernel)
    (by
      have : ∀ l ∈ nestedText, begins reIf0 l = true → l = [35#8, 105#8, 102#8, 32#8, 48#8, 10#8] := by decide +kernel
      intro l hl h0
      exact ⟨[10#8], this l hl (begins_iff.2 h0), by simp⟩)
    (by simp [nestedText, NoElse, lineKind, directive, List.dropWhile, List.takeWhile, isBlank, isLetter])
  have h3 : stripUndefs 0 nestedText = .ok (nestedText.take 2 ++ nestedText.drop 9) := rfl
  rw [h3] at h1
  cases h1
  exact ⟨_, h3, h2, rfl⟩

end Minilib

import Verif.Spec.Docdep
import Verif.Model.Docdep
/-
C118: the names behind "Defines:".
-/

set_option autoImplicit false

namespace Minilib

open _root_.Spec Lean.Order

variable {dep : Line → Option (List Line)}

theorem begins_underscore (x : Line) : begins [95#8] x = true ↔ x.head? = some 95#8 := by
  cases x with
  | nil => simp [begins, List.isPrefixOf]
  | cons b x =>
    simp only [begins, List.isPrefixOf, Bool.and_true, beq_iff_eq, List.head?_cons, Option.some.injEq]
    exact eq_comm

theorem rdepAll_ok {rank : Line → Nat} (hr : ∀ f ds g, dep f = some ds → g ∈ ds → rank g < rank f) :
    ∀ (N : Nat) (ds : List Line), (∀ x ∈ ds, rank x < N) →
      ∃ r, rdepAll dep ds = .ok r ∧ ∀ n, n ∈ r ↔ ∃ x ∈ ds, x.head? ≠ some 95#8 ∧ LeadsTo dep x n
  | N, [], _ => ⟨[], by rw [rdepAll], fun n => by simp⟩
  | N, x :: xs, h => by
    obtain ⟨s, h1, h2⟩ := rdepAll_ok hr N xs (fun y hy => h y (by simp [hy]))
    rw [rdepAll]
    by_cases hu : x.head? = some 95#8
    · rw [if_pos ((begins_underscore x).2 hu)]
      refine ⟨s, h1, fun n => ?_⟩
      rw [h2]
      simp [hu]
    · rw [if_neg (fun e => hu ((begins_underscore x).1 e))]
      cases hd : dep x with
      | none =>
        simp only
        rw [h1]
        refine ⟨x :: s, rfl, fun n => ?_⟩
        rw [List.mem_cons, h2]
        constructor
        · rintro (rfl | ⟨y, hy, a⟩)
          · exact ⟨n, by simp, hu, .last hd⟩
          · exact ⟨y, by simp [hy], a⟩
        · rintro ⟨y, hy, a, l⟩
          rcases List.mem_cons.1 hy with rfl | hy
          · cases l with
            | last => exact .inl rfl
            | over e => rw [hd] at e; cases e
          · exact .inr ⟨y, hy, a, l⟩
      | some ds =>
        simp only
        have hx := h x (by simp)
        obtain ⟨r, h3, h4⟩ := rdepAll_ok hr (rank x) ds (fun y hy => hr x ds y hd hy)
        rw [h3, h1]
        refine ⟨r ++ s, rfl, fun n => ?_⟩
        rw [List.mem_append, h2, h4]
        constructor
        · rintro (⟨y, hy, a, l⟩ | ⟨y, hy, a⟩)
          · exact ⟨x, by simp, hu, .over hd hy a l⟩
          · exact ⟨y, by simp [hy], a⟩
        · rintro ⟨y, hy, a, l⟩
          rcases List.mem_cons.1 hy with rfl | hy
          · cases l with
            | last e => rw [hd] at e; cases e
            | over e hg b l =>
              rw [hd] at e
              cases e
              exact .inl ⟨_, hg, b, l⟩
          · exact .inr ⟨y, hy, a, l⟩
  termination_by N ds => (N, ds.length)

/-- C118: which names are listed, exactly. -/
theorem C118_exact_partial (ha : Acyclic dep) (f : Line) :
    ∃ r, rdep dep f = .ok r ∧ ∀ n, n ∈ r ↔ LeadsTo dep f n := by
  obtain ⟨rank, hr⟩ := ha
  unfold rdep
  cases hd : dep f with
  | none =>
    refine ⟨[f], rfl, fun n => ?_⟩
    rw [List.mem_singleton]
    constructor
    · rintro rfl; exact .last hd
    · intro l
      cases l with
      | last => rfl
      | over e => rw [hd] at e; cases e
  | some ds =>
    obtain ⟨r, h1, h2⟩ := rdepAll_ok hr (rank f) ds (fun y hy => hr f ds y hd hy)
    refine ⟨r, h1, fun n => ?_⟩
    rw [h2]
    constructor
    · rintro ⟨x, hx, a, l⟩; exact .over hd hx a l
    · intro l
      cases l with
      | last e => rw [hd] at e; cases e
      | over e hg b l => rw [hd] at e; cases e; exact ⟨_, hg, b, l⟩

theorem leadsTo_switches {f n : Line} (h : LeadsTo dep f n) (hf : dep f ≠ none) : Switches dep f n := by
  induction h with
  | last e => exact absurd e hf
  | @over f g n ds e hg b l ih =>
    cases hd : dep g with
    | none =>
      have : n = g := by
        cases l with
        | last => rfl
        | over e' => rw [hd] at e'; cases e'
      subst this
      exact .one e hg
    | some _ => exact .more e hg (ih (by simp [hd]))

/-- C118: nothing is listed that the function does not switch on; and everything it switches on directly, that depends on nothing itself and does not
begin with an underscore, is listed. -/
theorem C118_listed_partial (ha : Acyclic dep) {f : Line} {ds : List Line} (hd : dep f = some ds) :
    ∃ r, rdep dep f = .ok r ∧ (∀ n ∈ r, Switches dep f n ∧ dep n = none) ∧
      ∀ n ∈ ds, dep n = none → n.head? ≠ some 95#8 → n ∈ r := by
  obtain ⟨r, h1, h2⟩ := C118_exact_partial ha f
  refine ⟨r, h1, fun n hn => ⟨leadsTo_switches ((h2 n).1 hn) (by simp [hd]), ?_⟩, fun n hn h0 hu => (h2 n).2 (.over hd hn hu (.last h0))⟩
  have := (h2 n).1 hn
  clear hn h2 h1 hd
  induction this with
  | last e => exact e
  | over _ _ _ _ ih => exact ih

/-- C118 as a whole: the names listed are those the function switches on. -/
def C118_full : Prop := ∀ (dep : Line → Option (List Line)) (f : Line), Acyclic dep → dep f ≠ none →
  ∃ r, rdep dep f = .ok r ∧ ∀ n, n ∈ r ↔ Switches dep f n

/-- `a` depends on `b`, `b` on `c`; `a` on `_d`, too. -/
def abcDep (l : Line) : Option (List Line) :=
  if l = [97#8] then some [[98#8], [95#8, 100#8]] else if l = [98#8] then some [[99#8]] else none

theorem abc_acyclic : Acyclic abcDep := by
  refine ⟨fun l => if l = [97#8] then 2 else if l = [98#8] then 1 else 0, fun f ds g h hg => ?_⟩
  unfold abcDep at h
  by_cases h1 : f = [97#8]
  · rw [if_pos h1] at h
    cases h
    subst h1
    simp only [List.mem_cons, List.not_mem_nil, or_false] at hg
    rcases hg with rfl | rfl <;> decide
  · rw [if_neg h1] at h
    by_cases h2 : f = [98#8]
    · rw [if_pos h2] at h
      cases h
      subst h2
      simp only [List.mem_singleton] at hg
      subst hg
      decide
    · rw [if_neg h2] at h; cases h

/-- C118 fails: a name that itself depends on others is left out. -/
theorem C118_refuted : ¬ C118_full := by
  intro h
  obtain ⟨r, h1, h2⟩ := h abcDep [97#8] abc_acyclic (by decide)
  obtain ⟨r', h3, h4⟩ := C118_exact_partial abc_acyclic [97#8]
  rw [h1] at h3
  cases h3
  have hb : [98#8] ∈ r := (h2 _).2 (.one rfl (by simp))
  have : ∀ {f n : Line}, LeadsTo abcDep f n → abcDep n = none := by
    intro f n l
    induction l with
    | last e => exact e
    | over _ _ _ _ ih => exact ih
  exact absurd (this ((h4 _).1 hb)) (by decide)

/-- C118 fails: names that begin with an underscore are left out. -/
theorem C118_underscore_refuted : ∃ r, rdep abcDep [97#8] = .ok r ∧ [95#8, 100#8] ∉ r ∧ Switches abcDep [97#8] [95#8, 100#8] := by
  obtain ⟨r, h1, h2⟩ := C118_exact_partial abc_acyclic [97#8]
  refine ⟨r, h1, fun hm => ?_, .one rfl (by simp)⟩
  have l := (h2 _).1 hm
  cases l with
  | over e hg b l =>
    cases e
    simp only [List.mem_cons, List.not_mem_nil, or_false] at hg
    rcases hg with rfl | rfl
    · cases l with
      | over e hg b l =>
        cases e
        simp only [List.mem_singleton] at hg
        subst hg
        cases l with
        | over e => cases e
    · exact absurd rfl b

/-- C118 fails: functions that depend on each other (`s 0`, `s 1`, …, over any number of steps and back) keep the script busy for ever. -/
theorem C118_cycle_refuted (s : Nat → Line) (hs : ∀ i, ∃ ds, dep (s i) = some ds ∧ s (i + 1) ∈ ds) (hu : ∀ i, (s i).head? ≠ some 95#8) :
    rdep dep (s 0) = .div := by
  have key : (∀ ds, rdepAll dep ds ≠ .ub) ∧ ∀ i ds, s i ∈ ds → rdepAll dep ds = .div := by
    refine rdepAll.fixpoint_induct dep (motive := fun f => (∀ ds, f ds ≠ .ub) ∧ ∀ i ds, s i ∈ ds → f ds = .div) ?_ ?_
    · apply admissible_and
      · apply admissible_pi
        intro ds
        apply admissible_apply (P := fun (_ : List Line) (f : Res (List Line)) => f ≠ Res.ub) (x := ds)
        exact admissible_flatOrder _ (show (Res.div : Res (List Line)) ≠ .ub by simp)
      · apply admissible_pi
        intro i
        apply admissible_pi
        intro ds
        apply admissible_pi
        intro _
        apply admissible_apply (P := fun (_ : List Line) (f : Res (List Line)) => f = Res.div) (x := ds)
        exact admissible_flatOrder _ rfl
    · rintro f ⟨ih1, ih2⟩
      constructor
      · intro ds
        cases ds with
        | nil => simp
        | cons x xs =>
          simp only
          split
          · exact ih1 xs
          · split
            · cases h : f xs with
              | ok => simp
              | ub => exact absurd h (ih1 xs)
              | div => simp
            · rename_i ds _
              cases h : f ds with
              | ok =>
                cases h' : f xs with
                | ok => simp
                | ub => exact absurd h' (ih1 xs)
                | div => simp
              | ub => exact absurd h (ih1 ds)
              | div => simp
      · intro i ds hi
        cases ds with
        | nil => simp at hi
        | cons x xs =>
          simp only
          by_cases hx : s i = x
          · subst hx
            rw [if_neg (fun e => hu i ((begins_underscore _).1 e))]
            obtain ⟨ds', h1, h2⟩ := hs i
            rw [h1]
            simp only
            rw [ih2 (i + 1) ds' h2]
            rfl
          · have hi' : s i ∈ xs := by simpa [hx] using hi
            have hd := ih2 i xs hi'
            split
            · exact hd
            · split
              · rw [hd]; rfl
              · rename_i ds _
                rw [hd]
                cases h : f ds with
                | ok => rfl
                | ub => exact absurd h (ih1 ds)
                | div => rfl
  obtain ⟨ds, h1, h2⟩ := hs 0
  unfold rdep
  rw [h1]
  exact key.2 1 ds h2

/-- C118: `a` lists `c`. -/
example : ∃ r, rdep abcDep [97#8] = .ok r ∧ [99#8] ∈ r ∧ [98#8] ∉ r := by
  obtain ⟨r, h1, h2⟩ := C118_exact_partial abc_acyclic [97#8]
  obtain ⟨r', h3, h4, _⟩ := C118_listed_partial abc_acyclic (f := [97#8]) rfl
  rw [h1] at h3
  cases h3
  exact ⟨r, h1, (h2 _).2 (.over (g := [98#8]) rfl (by simp) (by decide) (.over rfl (List.mem_singleton.2 rfl) (by decide) (.last rfl))),
    fun h => absurd (h4 _ h).2 (by decide)⟩

/-- C118: two functions that depend on each other. -/
example : rdep (fun l => if l = [97#8] then some [[98#8]] else some [[97#8]]) [97#8] = .div :=
  C118_cycle_refuted (fun i => if i % 2 = 0 then [97#8] else [98#8]) (fun i => by
    rcases Nat.mod_two_eq_zero_or_one i with h | h
    · exact ⟨[[98#8]], by simp [h], by simp [show (i + 1) % 2 = 1 by omega]⟩
    · exact ⟨[[97#8]], by simp [h], by simp [show (i + 1) % 2 = 0 by omega]⟩) (fun i => by
    by_cases h : i % 2 = 0 <;> simp [h])

end Minilib

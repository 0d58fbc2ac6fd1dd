import Verif.Spec.Combine
/-
C112: the source and everything it includes in one file.
-/

set_option autoImplicit false

namespace Minilib
open Spec

/-- Plain lines still to come. -/
def pendingPlain (stack : List (List Line)) : List Line := stack.flatten.filter (fun l => (includeName l).isNone)

/-- A name still to come. -/
def PendingName (stack : List (List Line)) (g : Line) : Prop := ∃ l ∈ stack.flatten, includeName l = some g

/-- The state of a run. -/
structure SlurpInv (fs : Line → Option (List Line)) (f0 : Line) (stack : List (List Line)) (s : Slurp) : Prop where
  nodup : s.included.Nodup
  within : ∀ f ∈ s.included, Within fs f0 f
  start : f0 ∈ s.included
  closed : ∀ f ∈ s.included, ∀ g, Names fs f g → g ∈ s.included ∨ special g = true ∨ PendingName stack g
  pend : ∀ g, PendingName stack g → g ≠ [] → g ≠ [48#8] → Within fs f0 g
  perm : (s.out ++ pendingPlain stack).Perm (s.included.flatMap (plainLines fs))

theorem pending_mono {stack : List (List Line)} {l : Line} {ls : List Line} {g : Line} :
    PendingName (ls :: stack) g → PendingName ((l :: ls) :: stack) g := by
  rintro ⟨x, hx, h⟩
  exact ⟨x, by simp at hx ⊢; exact Or.inr hx, h⟩

theorem pending_cons {stack : List (List Line)} {l : Line} {ls : List Line} {g : Line} (h : PendingName ((l :: ls) :: stack) g) :
    includeName l = some g ∨ PendingName (ls :: stack) g := by
  obtain ⟨x, hx, h⟩ := h
  simp only [List.flatten_cons, List.cons_append, List.mem_cons] at hx
  rcases hx with rfl | hx
  · exact Or.inl h
  · exact Or.inr ⟨x, by simpa using hx, h⟩

/-- The number of files of the list not yet opened. -/
def filesLeft (sup inc : List Line) : Nat := (sup.filter (fun f => !inc.contains f)).length

theorem filesLeft_lt {sup inc : List Line} {f : Line} (h1 : f ∈ sup) (h2 : f ∉ inc) : filesLeft sup (f :: inc) < filesLeft sup inc := by
  unfold filesLeft
  have hs : (sup.filter (fun x => !(f :: inc).contains x)).Sublist (sup.filter (fun x => !inc.contains x)) := by
    have : (sup.filter (fun x => !(f :: inc).contains x)) = (sup.filter (fun x => !inc.contains x)).filter (fun x => x ≠ f) := by
      rw [List.filter_filter]
      congr 1
      funext x
      simp only [List.contains_cons]
      by_cases hx : x = f
      · simp [hx]
      · simp [hx]
    rw [this]
    exact List.filter_sublist
  rcases Nat.lt_or_ge (sup.filter (fun x => !(f :: inc).contains x)).length (sup.filter (fun x => !inc.contains x)).length with h | h
  · exact h
  · have e := hs.eq_of_length_le h
    have hm : f ∈ sup.filter (fun x => !inc.contains x) := List.mem_filter.2 ⟨h1, by simpa using h2⟩
    rw [← e] at hm
    simp at hm

theorem filesLeft_le {sup inc : List Line} {f : Line} : filesLeft sup (f :: inc) ≤ filesLeft sup inc := by
  by_cases h1 : f ∈ sup ∧ f ∉ inc
  · exact Nat.le_of_lt (filesLeft_lt h1.1 h1.2)
  · apply Nat.le_of_eq
    unfold filesLeft
    congr 1
    apply List.filter_congr
    intro x hx
    simp only [List.contains_cons]
    by_cases hxf : x = f
    · subst hxf
      have : x ∈ inc := Classical.byContradiction fun e => h1 ⟨hx, e⟩
      simp [this]
    · simp [hxf]

/-- Work left on the stack. -/
def stackSize (stack : List (List Line)) : Nat := (stack.map (fun ls => ls.length + 1)).sum

theorem slurp_run {fs : Line → Option (List Line)} {f0 : Line} {sup : List Line} (hsup : ∀ f, fs f ≠ none → f ∈ sup) :
    ∀ (n k : Nat) (stack : List (List Line)) (s : Slurp), filesLeft sup s.included ≤ n → stackSize stack ≤ k → SlurpInv fs f0 stack s →
      ∃ s', slurpRun fs stack s = .ok s' ∧ SlurpInv fs f0 [] s' := by
  intro n
  induction n using Nat.strongRecOn with
  | _ n ihn =>
  intro k
  induction k using Nat.strongRecOn with
  | _ k ihk =>
  intro stack s hn hk inv
  obtain ⟨i1, i2, i3, i4, i5, i6⟩ := inv
  match stack with
  | [] => exact ⟨s, by rw [slurpRun], ⟨i1, i2, i3, i4, i5, i6⟩⟩
  | [] :: st =>
    have hk' : stackSize st < k := by simp [stackSize] at hk ⊢; omega
    obtain ⟨s', h1, h2⟩ := ihk _ hk' st { s with recursion := s.recursion - 1 } hn (Nat.le_refl _)
      ⟨i1, i2, i3, by simpa [PendingName] using i4, by simpa [PendingName] using i5, by simpa [pendingPlain] using i6⟩
    exact ⟨s', by rw [slurpRun]; exact h1, h2⟩
  | (l :: ls) :: st =>
    have hk' : stackSize (ls :: st) < k := by simp [stackSize] at hk ⊢; omega
    have hp1 : ∀ g, PendingName (ls :: st) g → PendingName ((l :: ls) :: st) g := fun g => pending_mono
    rw [slurpRun]
    cases hl : includeName l with
    | none =>
      simp only
      refine ihk _ hk' (ls :: st) { s with out := s.out ++ [l] } hn (Nat.le_refl _) ⟨i1, i2, i3, ?_, fun g hg => i5 g (hp1 g hg), ?_⟩
      · intro f hf g hg
        rcases i4 f hf g hg with h | h
        · exact Or.inl h
        · rcases h with h | h
          · exact Or.inr (Or.inl h)
          · rcases pending_cons h with h | h
            · rw [hl] at h; cases h
            · exact Or.inr (Or.inr h)
      · simp only [pendingPlain, List.flatten_cons, List.cons_append] at i6
        rw [List.filter_cons, if_pos (by rw [hl]; rfl)] at i6
        simpa [pendingPlain] using i6
    | some m =>
      simp only
      have hplain : pendingPlain ((l :: ls) :: st) = pendingPlain (ls :: st) := by
        simp only [pendingPlain, List.flatten_cons, List.cons_append]
        rw [List.filter_cons, if_neg (by rw [hl]; simp)]
      rw [hplain] at i6
      -- a name that is in the list needs no place on the stack
      have hcl : ∀ inc : List Line, (∀ f ∈ s.included, f ∈ inc) → (m ∈ inc ∨ m = [] ∨ m = [48#8] ∨ special m = true) →
          ∀ f ∈ s.included, ∀ g, Names fs f g → g ∈ inc ∨ special g = true ∨ PendingName (ls :: st) g := by
        intro inc hinc hm f hf g hg
        rcases i4 f hf g hg with h | h
        · exact Or.inl (hinc g h)
        · rcases h with h | h
          · exact Or.inr (Or.inl h)
          · rcases pending_cons h with h | h
            · rw [hl] at h
              cases h
              rcases hm with hm | hm | hm | hm
              · exact Or.inl hm
              · obtain ⟨_, _, _, _, _, h1, _⟩ := hg; exact absurd hm h1
              · obtain ⟨_, _, _, _, _, _, h1⟩ := hg; exact absurd hm h1
              · exact Or.inr (Or.inl hm)
            · exact Or.inr (Or.inr h)
      by_cases hm0 : m = [] ∨ m = [48#8]
      · rw [if_pos hm0]
        exact ihk _ hk' (ls :: st) s hn (Nat.le_refl _)
          ⟨i1, i2, i3, hcl _ (fun _ h => h) (Or.inr (hm0.elim Or.inl (fun e => Or.inr (Or.inl e)))), fun g hg => i5 g (hp1 g hg), i6⟩
      · rw [if_neg hm0]
        have hw : Within fs f0 m := i5 m ⟨l, by simp, hl⟩ (fun e => hm0 (Or.inl e)) (fun e => hm0 (Or.inr e))
        by_cases hin : m ∈ s.included
        · have he : slurpEnter fs m s = ({ s with recursion := s.recursion + 1 }, none) := by unfold slurpEnter; rw [if_pos hin]
          rw [he]
          simp only
          exact ihk _ hk' (ls :: st) { s with recursion := s.recursion + 1 } hn (Nat.le_refl _)
            ⟨i1, i2, i3, hcl _ (fun _ h => h) (Or.inl hin), fun g hg => i5 g (hp1 g hg), i6⟩
        · by_cases hspec : s.recursion + 1 > 2 ∧ special m = true
          · have he : slurpEnter fs m s = (s, none) := by unfold slurpEnter; rw [if_neg hin, if_pos hspec]
            rw [he]
            simp only
            exact ihk _ hk' (ls :: st) s hn (Nat.le_refl _)
              ⟨i1, i2, i3, hcl _ (fun _ h => h) (Or.inr (Or.inr (Or.inr hspec.2))), fun g hg => i5 g (hp1 g hg), i6⟩
          · have he : slurpEnter fs m s = ({ s with recursion := s.recursion + 1, included := m :: s.included }, fs m) := by
              unfold slurpEnter
              rw [if_neg hin, if_neg hspec]
            rw [he]
            simp only
            cases hf : fs m with
            | none =>
              simp only
              refine ihk _ hk' (ls :: st) ⟨m :: s.included, s.recursion + 1, s.out⟩ (Nat.le_trans filesLeft_le hn) (Nat.le_refl _)
                ⟨List.nodup_cons.2 ⟨hin, i1⟩, ?_, List.mem_cons_of_mem _ i3, ?_, fun g hg => i5 g (hp1 g hg), ?_⟩
              · intro f h
                rcases List.mem_cons.1 h with rfl | h
                · exact hw
                · exact i2 f h
              · intro f h g hg
                rcases List.mem_cons.1 h with rfl | h
                · obtain ⟨_, _, h1, _⟩ := hg; rw [hf] at h1; cases h1
                · exact hcl (m :: s.included) (fun _ h => List.mem_cons_of_mem _ h) (Or.inl (List.mem_cons_self ..)) f h g hg
              · simpa [plainLines, hf] using i6
            | some new =>
              simp only
              have hlt : filesLeft sup (m :: s.included) < n := Nat.lt_of_lt_of_le (filesLeft_lt (hsup m (by rw [hf]; simp)) hin) hn
              refine ihn _ hlt _ (new :: ls :: st) ⟨m :: s.included, s.recursion + 1, s.out⟩ (Nat.le_refl _) (Nat.le_refl _)
                ⟨List.nodup_cons.2 ⟨hin, i1⟩, ?_, List.mem_cons_of_mem _ i3, ?_, ?_, ?_⟩
              · intro f h
                rcases List.mem_cons.1 h with rfl | h
                · exact hw
                · exact i2 f h
              · intro f h g hg
                rcases List.mem_cons.1 h with rfl | h
                · obtain ⟨ls', l', h1, h2, h3, _⟩ := hg
                  rw [hf] at h1
                  cases h1
                  exact Or.inr (Or.inr ⟨l', by simp [h2], h3⟩)
                · rcases hcl (m :: s.included) (fun _ h => List.mem_cons_of_mem _ h) (Or.inl (List.mem_cons_self ..)) f h g hg with h | h | ⟨x, hx, h⟩
                  · exact Or.inl h
                  · exact Or.inr (Or.inl h)
                  · exact Or.inr (Or.inr ⟨x, by simp at hx ⊢; exact Or.inr hx, h⟩)
              · rintro g ⟨x, hx, h⟩ h0 h1
                simp only [List.flatten_cons, List.mem_append] at hx
                rcases hx with hx | hx
                · exact .step hw ⟨new, x, hf, hx, h, h0, h1⟩
                · exact i5 g (hp1 g ⟨x, by simpa using hx, h⟩) h0 h1
              · have e1 : pendingPlain (new :: ls :: st) = new.filter (fun l => (includeName l).isNone) ++ pendingPlain (ls :: st) := by
                  simp [pendingPlain]
                have e2 : (m :: s.included).flatMap (plainLines fs) = new.filter (fun l => (includeName l).isNone) ++ s.included.flatMap (plainLines fs) := by
                  simp [plainLines, hf]
                simp only
                rw [e1, e2]
                refine List.Perm.trans ?_ (List.Perm.append_left _ i6)
                rw [← List.append_assoc, ← List.append_assoc]
                exact List.Perm.append_right _ List.perm_append_comm

/-- C112 (partial: of the seven names of line 49, some may be missing): the script ends, also for files that include each other, and its output consists
of the lines, apart from `#include`, of files within reach, each file once; and all files they include are among them, apart from these names. -/
theorem C112_once_partial {fs : Line → Option (List Line)} {f0 : Line} {sup : List Line} (hsup : ∀ f, fs f ≠ none → f ∈ sup) :
    ∃ (s : Slurp) (order : List Line), combine fs f0 = .ok s ∧ order.Nodup ∧ f0 ∈ order ∧ (∀ f ∈ order, Within fs f0 f) ∧
      (∀ f ∈ order, ∀ g, Names fs f g → g ∈ order ∨ special g = true) ∧ s.out.Perm (order.flatMap (plainLines fs)) := by
  have he : slurpEnter fs f0 ⟨[], 0, []⟩ = (⟨[f0], 1, []⟩, fs f0) := by
    unfold slurpEnter
    rw [if_neg (by simp), if_neg (by simp)]
  unfold combine
  rw [he]
  cases hf : fs f0 with
  | none =>
    refine ⟨_, [f0], rfl, by simp, by simp, fun f h => by simp at h; subst h; exact .self, fun f h g hg => ?_, by simp [plainLines, hf]⟩
    simp at h
    subst h
    obtain ⟨_, _, h1, _⟩ := hg
    rw [hf] at h1; cases h1
  | some ls =>
    simp only
    obtain ⟨s, h1, inv⟩ := slurp_run hsup _ _ [ls] ⟨[f0], 1, []⟩ (Nat.le_refl _) (Nat.le_refl _)
      ⟨by simp, fun f h => by simp at h; subst h; exact .self, by simp,
       fun f h g hg => by
         simp at h; subst h
         obtain ⟨ls', l, h1, h2, h3, _⟩ := hg
         rw [hf] at h1; cases h1
         exact Or.inr (Or.inr ⟨l, by simpa using h2, h3⟩),
       fun g ⟨l, hl, h⟩ h0 h1 => .step .self ⟨ls, l, hf, by simpa using hl, h, h0, h1⟩,
       by simp [pendingPlain, plainLines, hf]⟩
    refine ⟨s, s.included, h1, inv.nodup, inv.start, inv.within, fun f hf' g hg => ?_, by simpa [pendingPlain] using inv.perm⟩
    rcases inv.closed f hf' g hg with h | h | ⟨x, hx, _⟩
    · exact Or.inl h
    · exact Or.inr h
    · simp at hx

/-- C112 (partial: none of the files included is one of the seven names): the output consists of the lines, apart from `#include`, of all files within
reach, each file once. -/
theorem C112_all_partial {fs : Line → Option (List Line)} {f0 : Line} {sup : List Line} (hsup : ∀ f, fs f ≠ none → f ∈ sup)
    (hsp : ∀ f, Within fs f0 f → f ≠ f0 → special f = false) :
    ∃ (s : Slurp) (order : List Line), combine fs f0 = .ok s ∧ order.Nodup ∧ (∀ f, f ∈ order ↔ Within fs f0 f) ∧
      s.out.Perm (order.flatMap (plainLines fs)) := by
  obtain ⟨s, order, h1, h2, h3, h4, h5, h6⟩ := C112_once_partial (f0 := f0) hsup
  refine ⟨s, order, h1, h2, fun f => ⟨h4 f, fun h => ?_⟩, h6⟩
  induction h with
  | self => exact h3
  | @step g h hg hn ih =>
    rcases h5 _ ih _ hn with h' | h'
    · exact h'
    · by_cases e : h = f0
      · rw [e]; exact h3
      · rw [hsp h (.step hg hn) e] at h'
        cases h'

/-- The lists on the stack one after the other. -/
def OnceAll (fs : Line → Option (List Line)) : List Line → List (List Line) → List Line → List Line → Prop
  | seen, [], seen', out => seen = seen' ∧ out = []
  | seen, ls :: st, seen', out => ∃ mid o1 o2, Once fs seen ls mid o1 ∧ OnceAll fs mid st seen' o2 ∧ out = o1 ++ o2

theorem slurp_once {fs : Line → Option (List Line)} {f0 : Line} {sup : List Line} (hsup : ∀ f, fs f ≠ none → f ∈ sup)
    (hsp : ∀ f, Within fs f0 f → f ≠ f0 → special f = false) :
    ∀ (n k : Nat) (stack : List (List Line)) (s : Slurp), filesLeft sup s.included ≤ n → stackSize stack ≤ k →
      f0 ∈ s.included → (∀ g, PendingName stack g → g ≠ [] → g ≠ [48#8] → Within fs f0 g) →
      ∃ s' out, slurpRun fs stack s = .ok s' ∧ OnceAll fs s.included stack s'.included out ∧ s'.out = s.out ++ out := by
  intro n
  induction n using Nat.strongRecOn with
  | _ n ihn =>
  intro k
  induction k using Nat.strongRecOn with
  | _ k ihk =>
  intro stack s hn hk i3 i5
  match stack with
  | [] => exact ⟨s, [], by rw [slurpRun], ⟨rfl, rfl⟩, by simp⟩
  | [] :: st =>
    have hk' : stackSize st < k := by simp [stackSize] at hk ⊢; omega
    obtain ⟨s', o, h1, h2, h3⟩ := ihk _ hk' st { s with recursion := s.recursion - 1 } hn (Nat.le_refl _) i3 (by simpa [PendingName] using i5)
    exact ⟨s', o, by rw [slurpRun]; exact h1, ⟨s.included, [], o, .nil _, h2, rfl⟩, h3⟩
  | (l :: ls) :: st =>
    have hk' : stackSize (ls :: st) < k := by simp [stackSize] at hk ⊢; omega
    have hp1 : ∀ g, PendingName (ls :: st) g → g ≠ [] → g ≠ [48#8] → Within fs f0 g := fun g h => i5 g (pending_mono h)
    rw [slurpRun]
    cases hl : includeName l with
    | none =>
      simp only
      obtain ⟨s', o, h1, ⟨mid, o1, o2, c1, c2, c3⟩, h3⟩ := ihk _ hk' (ls :: st) { s with out := s.out ++ [l] } hn (Nat.le_refl _) i3 hp1
      exact ⟨s', l :: o, h1, ⟨mid, l :: o1, o2, .plain hl c1, c2, by rw [c3]; rfl⟩, by rw [h3]; simp⟩
    | some m =>
      simp only
      by_cases hm0 : m = [] ∨ m = [48#8]
      · rw [if_pos hm0]
        obtain ⟨s', o, h1, ⟨mid, o1, o2, c1, c2, c3⟩, h3⟩ := ihk _ hk' (ls :: st) s hn (Nat.le_refl _) i3 hp1
        exact ⟨s', o, h1, ⟨mid, o1, o2, .skip hl (hm0.elim Or.inl (fun e => Or.inr (Or.inl e))) c1, c2, c3⟩, h3⟩
      · rw [if_neg hm0]
        have hw : Within fs f0 m := i5 m ⟨l, by simp, hl⟩ (fun e => hm0 (Or.inl e)) (fun e => hm0 (Or.inr e))
        by_cases hin : m ∈ s.included
        · have he : slurpEnter fs m s = ({ s with recursion := s.recursion + 1 }, none) := by unfold slurpEnter; rw [if_pos hin]
          rw [he]
          simp only
          obtain ⟨s', o, h1, ⟨mid, o1, o2, c1, c2, c3⟩, h3⟩ := ihk _ hk' (ls :: st) { s with recursion := s.recursion + 1 } hn (Nat.le_refl _) i3 hp1
          exact ⟨s', o, h1, ⟨mid, o1, o2, .skip hl (Or.inr (Or.inr hin)) c1, c2, c3⟩, h3⟩
        · have he : slurpEnter fs m s = ({ s with recursion := s.recursion + 1, included := m :: s.included }, fs m) := by
            unfold slurpEnter
            rw [if_neg hin, if_neg (by rw [hsp m hw (fun e => hin (e ▸ i3))]; simp)]
          rw [he]
          simp only
          cases hf : fs m with
          | none =>
            simp only
            obtain ⟨s', o, h1, ⟨mid, o1, o2, c1, c2, c3⟩, h3⟩ := ihk _ hk' (ls :: st) ⟨m :: s.included, s.recursion + 1, s.out⟩
              (Nat.le_trans filesLeft_le hn) (Nat.le_refl _) (List.mem_cons_of_mem _ i3) hp1
            exact ⟨s', o, h1, ⟨mid, [] ++ o1, o2, .file hl hin (by rw [hf]; exact .nil _) c1, c2, c3⟩, h3⟩
          | some new =>
            simp only
            have hlt : filesLeft sup (m :: s.included) < n := Nat.lt_of_lt_of_le (filesLeft_lt (hsup m (by rw [hf]; simp)) hin) hn
            obtain ⟨s', o, h1, ⟨mid, o1, o2, c1, ⟨mid', o3, o4, d1, d2, d3⟩, c3⟩, h3⟩ :=
              ihn _ hlt _ (new :: ls :: st) ⟨m :: s.included, s.recursion + 1, s.out⟩ (Nat.le_refl _) (Nat.le_refl _) (List.mem_cons_of_mem _ i3) (by
                rintro g ⟨x, hx, h⟩ h0 h1
                simp only [List.flatten_cons, List.mem_append] at hx
                rcases hx with hx | hx
                · exact .step hw ⟨new, x, hf, hx, h, h0, h1⟩
                · exact hp1 g ⟨x, by simpa using hx, h⟩ h0 h1)
            exact ⟨s', o, h1, ⟨mid', o1 ++ o3, o4, .file hl hin (by rw [hf]; exact c1) d1, d2, by rw [c3, d3]; simp⟩, h3⟩

/-- C112 (partial, as above): the lines stand in the order in which a compiler reads them: the lines of a file in the place of the first `#include` that
names it. -/
theorem C112_order_partial {fs : Line → Option (List Line)} {f0 : Line} {sup : List Line} (hsup : ∀ f, fs f ≠ none → f ∈ sup)
    (hsp : ∀ f, Within fs f0 f → f ≠ f0 → special f = false) :
    ∃ (s : Slurp) (seen : List Line), combine fs f0 = .ok s ∧ Once fs [f0] ((fs f0).getD []) seen s.out := by
  have he : slurpEnter fs f0 ⟨[], 0, []⟩ = (⟨[f0], 1, []⟩, fs f0) := by
    unfold slurpEnter
    rw [if_neg (by simp), if_neg (by simp)]
  unfold combine
  rw [he]
  cases hf : fs f0 with
  | none => exact ⟨_, [f0], rfl, .nil _⟩
  | some ls =>
    simp only
    obtain ⟨s, o, h1, ⟨mid, o1, o2, c1, ⟨c2, c4⟩, c3⟩, h3⟩ := slurp_once hsup hsp _ _ [ls] ⟨[f0], 1, []⟩ (Nat.le_refl _) (Nat.le_refl _) (by simp)
      (fun g ⟨l, hl, h⟩ h0 h1 => .step .self ⟨ls, l, hf, by simpa using hl, h, h0, h1⟩)
    refine ⟨s, mid, h1, ?_⟩
    rw [h3, c3, c4]
    simpa using c1

/-- A text as bytes. -/
def txt (s : String) : Line := s.toList.map (fun c => BitVec.ofNat 8 c.toNat)

/-- Two files that include each other. -/
def fsRing (f : Line) : Option (List Line) :=
  if f = txt "x.h" then some [txt "#include \"y.h\"\n", txt "int x;\n", txt "#include <x.h>\n"]
  else if f = txt "y.h" then some [txt "#include <x.h>\n", txt "int y;\n"]
  else none

example : (∀ f, fsRing f ≠ none → f ∈ [txt "x.h", txt "y.h"]) ∧ (∀ f, Within fsRing (txt "x.h") f → f ≠ txt "x.h" → special f = false) ∧
    Within fsRing (txt "x.h") (txt "y.h") := by
  have hr : ∀ f, Within fsRing (txt "x.h") f → f = txt "x.h" ∨ f = txt "y.h" := by
    intro f h
    induction h with
    | self => exact Or.inl rfl
    | step _ hn ih =>
      obtain ⟨ls, l, h1, h2, h3, _⟩ := hn
      rcases ih with rfl | rfl
      · have e : fsRing (txt "x.h") = some [txt "#include \"y.h\"\n", txt "int x;\n", txt "#include <x.h>\n"] := by decide +kernel
        rw [e] at h1
        cases h1
        simp only [List.mem_cons, List.not_mem_nil, or_false] at h2
        rcases h2 with rfl | rfl | rfl
        · rw [show includeName (txt "#include \"y.h\"\n") = some (txt "y.h") by decide +kernel] at h3
          cases h3; exact Or.inr rfl
        · rw [show includeName (txt "int x;\n") = none by decide +kernel] at h3
          cases h3
        · rw [show includeName (txt "#include <x.h>\n") = some (txt "x.h") by decide +kernel] at h3
          cases h3; exact Or.inl rfl
      · have e : fsRing (txt "y.h") = some [txt "#include <x.h>\n", txt "int y;\n"] := by decide +kernel
        rw [e] at h1
        cases h1
        simp only [List.mem_cons, List.not_mem_nil, or_false] at h2
        rcases h2 with rfl | rfl
        · rw [show includeName (txt "#include <x.h>\n") = some (txt "x.h") by decide +kernel] at h3
          cases h3; exact Or.inl rfl
        · rw [show includeName (txt "int y;\n") = none by decide +kernel] at h3
          cases h3
  refine ⟨?_, ?_, .step .self ⟨[txt "#include \"y.h\"\n", txt "int x;\n", txt "#include <x.h>\n"], txt "#include \"y.h\"\n",
    by decide +kernel, by simp, by decide +kernel, by decide +kernel, by decide +kernel⟩⟩
  · intro f h
    unfold fsRing at h
    by_cases h1 : f = txt "x.h"
    · simp [h1]
    · by_cases h2 : f = txt "y.h"
      · simp [h2]
      · rw [if_neg h1, if_neg h2] at h; exact absurd rfl h
  · intro f h _
    rcases hr f h with rfl | rfl <;> decide +kernel

/-- The whole claim of C112: every file within reach is in the output, once. -/
def C112_full : Prop :=
  ∀ (fs : Line → Option (List Line)) (f0 : Line) (sup : List Line), (∀ f, fs f ≠ none → f ∈ sup) →
    ∃ (s : Slurp) (order : List Line), combine fs f0 = .ok s ∧ order.Nodup ∧ (∀ f, f ∈ order ↔ Within fs f0 f) ∧
      s.out.Perm (order.flatMap (plainLines fs))

/-- A file that includes another one twice, and then `exit.h`. -/
def fsTwice (f : Line) : Option (List Line) :=
  if f = txt "m.c" then some [txt "#include \"a.h\"\n", txt "#include \"a.h\"\n", txt "#include \"exit.h\"\n"]
  else if f = txt "a.h" then some [txt "int a;\n"]
  else if f = txt "exit.h" then some [txt "void exit(int);\n"]
  else none

/-- C112 fails: `$recursion` is not counted down for a file already seen, and from then on the names of line 49 are taken for recursions, and left out,
although they have not been included. -/
theorem C112_refuted : ¬ C112_full := by
  intro h
  obtain ⟨s, order, h1, h2, h3, h4⟩ := h fsTwice (txt "m.c") [txt "m.c", txt "a.h", txt "exit.h"] (by
    intro f h
    unfold fsTwice at h
    by_cases h1 : f = txt "m.c"
    · simp [h1]
    · by_cases h2 : f = txt "a.h"
      · simp [h2]
      · by_cases h3 : f = txt "exit.h"
        · simp [h3]
        · rw [if_neg h1, if_neg h2, if_neg h3] at h; exact absurd rfl h)
  have em : fsTwice (txt "m.c") = some [txt "#include \"a.h\"\n", txt "#include \"a.h\"\n", txt "#include \"exit.h\"\n"] := by decide +kernel
  have e0 : slurpEnter fsTwice (txt "m.c") ⟨[], 0, []⟩ =
      (⟨[txt "m.c"], 1, []⟩, some [txt "#include \"a.h\"\n", txt "#include \"a.h\"\n", txt "#include \"exit.h\"\n"]) := by
    unfold slurpEnter
    rw [if_neg (by simp), if_neg (by simp), em]
  have ea : includeName (txt "#include \"a.h\"\n") = some (txt "a.h") := by decide +kernel
  have ei : includeName (txt "int a;\n") = none := by decide +kernel
  have ee : includeName (txt "#include \"exit.h\"\n") = some (txt "exit.h") := by decide +kernel
  have e1 : slurpEnter fsTwice (txt "a.h") ⟨[txt "m.c"], 1, []⟩ = (⟨[txt "a.h", txt "m.c"], 2, []⟩, some [txt "int a;\n"]) := by
    unfold slurpEnter
    rw [if_neg (by decide +kernel), if_neg (by simp)]
    rw [show fsTwice (txt "a.h") = some [txt "int a;\n"] by decide +kernel]
  have e2 : slurpEnter fsTwice (txt "a.h") ⟨[txt "a.h", txt "m.c"], 1, [txt "int a;\n"]⟩ = (⟨[txt "a.h", txt "m.c"], 2, [txt "int a;\n"]⟩, none) := by
    unfold slurpEnter
    rw [if_pos (by simp)]
  have e3 : slurpEnter fsTwice (txt "exit.h") ⟨[txt "a.h", txt "m.c"], 2, [txt "int a;\n"]⟩ =
      (⟨[txt "a.h", txt "m.c"], 2, [txt "int a;\n"]⟩, none) := by
    unfold slurpEnter
    rw [if_neg (by decide +kernel), if_pos (by decide +kernel)]
  have na : ¬ (txt "a.h" = [] ∨ txt "a.h" = [48#8]) := by decide +kernel
  have ne : ¬ (txt "exit.h" = [] ∨ txt "exit.h" = [48#8]) := by decide +kernel
  have e : combine fsTwice (txt "m.c") = .ok ⟨[txt "a.h", txt "m.c"], 1, [txt "int a;\n"]⟩ := by
    unfold combine
    rw [e0]
    simp only
    rw [slurpRun]
    simp only [ea]
    rw [if_neg na, e1]
    simp only
    rw [slurpRun]
    simp only [ei]
    rw [slurpRun, slurpRun]
    simp only [ea, List.nil_append, Nat.add_one_sub_one]
    rw [if_neg na, e2]
    simp only
    rw [slurpRun]
    simp only [ee]
    rw [if_neg ne, e3]
    simp only
    rw [slurpRun, slurpRun]
    rfl
  rw [e] at h1
  cases h1
  have hm : txt "exit.h" ∈ order := (h3 _).2 (.step .self ⟨_, txt "#include \"exit.h\"\n", em, by simp, ee, by decide +kernel, by decide +kernel⟩)
  have hp : txt "void exit(int);\n" ∈ order.flatMap (plainLines fsTwice) :=
    List.mem_flatMap.2 ⟨_, hm, by decide +kernel⟩
  have hq : txt "void exit(int);\n" ∈ [txt "int a;\n"] := h4.mem_iff.2 hp
  exact absurd hq (by decide +kernel)

end Minilib

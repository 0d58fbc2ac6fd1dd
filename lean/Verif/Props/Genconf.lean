import Verif.Spec.Genconf
import Verif.Props.Switches
import Verif.Props.Stripundefs
/-
C113: the configuration made for a source.
-/

set_option autoImplicit false

namespace Minilib
open Mem _root_.Spec

/-! ### Where calls are -/

/-- A call in the rest, not in the arguments of another. -/
def FoundIn (table : List Line) (P rest : List CTok) (x : Line) : Prop := x ∈ table ∧ ∃ a, CallAt rest a x ∧ ¬ Inside table (P ++ a)

theorem callAt_nil {t : CTok} {r : List CTok} {x : Line} :
    CallAt (t :: r) [] x ↔ t = .name x ∧ ∃ nls post, Breaks nls ∧ r = nls ++ .opn :: post := by
  constructor
  · rintro ⟨nls, post, h1, h2⟩
    simp only [List.nil_append, List.cons.injEq] at h2
    exact ⟨h2.1, nls, post, h1, h2.2⟩
  · rintro ⟨rfl, nls, post, h1, rfl⟩
    exact ⟨nls, post, h1, rfl⟩

theorem callAt_cons {t u : CTok} {r a : List CTok} {x : Line} : CallAt (t :: r) (u :: a) x ↔ t = u ∧ CallAt r a x := by
  constructor
  · rintro ⟨nls, post, h1, h2⟩
    simp only [List.cons_append, List.cons.injEq] at h2
    exact ⟨h2.1, nls, post, h1, h2.2⟩
  · rintro ⟨rfl, nls, post, h1, rfl⟩
    exact ⟨nls, post, h1, rfl⟩

theorem not_found_nil {table : List Line} {P : List CTok} {x : Line} : ¬ FoundIn table P [] x := by
  rintro ⟨_, a, ⟨nls, post, _, h⟩, _⟩
  cases a <;> simp at h

theorem found_cons {table : List Line} {P r : List CTok} {t : CTok} {x : Line} :
    FoundIn table P (t :: r) x ↔
      (x ∈ table ∧ t = .name x ∧ (∃ nls post, Breaks nls ∧ r = nls ++ .opn :: post) ∧ ¬ Inside table P) ∨ FoundIn table (P ++ [t]) r x := by
  constructor
  · rintro ⟨hx, a, hc, hi⟩
    cases a with
    | nil => exact Or.inl ⟨hx, (callAt_nil.1 hc).1, (callAt_nil.1 hc).2, by simpa using hi⟩
    | cons u a =>
      obtain ⟨rfl, hc'⟩ := callAt_cons.1 hc
      exact Or.inr ⟨hx, a, hc', by simpa using hi⟩
  · rintro (⟨hx, ht, hr, hi⟩ | ⟨hx, a, hc, hi⟩)
    · exact ⟨hx, [], callAt_nil.2 ⟨ht, hr⟩, by simpa using hi⟩
    · exact ⟨hx, t :: a, callAt_cons.2 ⟨rfl, hc⟩, by simpa using hi⟩

/-- Without a name in front one token does not lead into arguments. -/
theorem inside_snoc {table : List Line} {P : List CTok} {t : CTok} (h : ¬ Inside table P)
    (hp : t = .opn → ∀ a m nls, P = a ++ .name m :: nls → m ∈ table → Breaks nls → False) : ¬ Inside table (P ++ [t]) := by
  rintro ⟨a, m, nls, mid, h1, h2, h3, h4⟩
  rcases List.eq_nil_or_concat mid with rfl | ⟨mid', u, rfl⟩
  · have e : P ++ [t] = (a ++ .name m :: nls) ++ [.opn] := by rw [h1]; simp
    obtain ⟨e1, e2⟩ := List.append_inj' e rfl
    exact hp (by simpa using e2) a m nls e1 h2 h3
  · have e : P ++ [t] = (a ++ .name m :: (nls ++ .opn :: mid')) ++ [u] := by rw [h1]; simp
    obtain ⟨e1, e2⟩ := List.append_inj' e rfl
    exact h ⟨a, m, nls, mid', e1, h2, h3, fun p hp => h4 p (hp.trans (by simp))⟩

/-- In the arguments. -/
theorem inside_args {table : List Line} {Q mid : List CTok} {n : Line} {nls : List CTok} (hn : n ∈ table) (hb : Breaks nls)
    (hm : ∀ p, p <+: mid → closes p ≤ opens p) : Inside table (Q ++ .name n :: (nls ++ .opn :: mid)) :=
  ⟨Q, n, nls, mid, rfl, hn, hb, hm⟩

/-- The parenthesis that closes the call. -/
theorem inside_close {table : List Line} {Q mid : List CTok} {n : Line} {nls : List CTok} (hq : ¬ Inside table Q) (hb : Breaks nls)
    (hm : ∀ p, p <+: mid → closes p ≤ opens p) (he : closes mid = opens mid) :
    ¬ Inside table (Q ++ .name n :: (nls ++ .opn :: (mid ++ [.cls]))) := by
  rintro ⟨a, m, nls', mid', h1, h2, h3, h4⟩
  -- where the two parentheses stand
  have e : (Q ++ .name n :: nls) ++ (.opn :: (mid ++ [.cls])) = (a ++ .name m :: nls') ++ (CTok.opn :: mid') := by simpa using h1
  rcases List.append_eq_append_iff.1 e with ⟨w, e1, e2⟩ | ⟨w, e1, e2⟩
  · -- behind ours
    cases w with
    | nil =>
      simp only [List.nil_append, List.cons.injEq, true_and] at e2
      have := h4 mid' (List.prefix_refl _)
      rw [← e2] at this
      simp [closes, opens] at this he
      omega
    | cons t w =>
      simp only [List.cons_append, List.cons.injEq] at e2
      obtain ⟨rfl, e2⟩ := e2
      rcases List.eq_nil_or_concat mid' with rfl | ⟨v, u, rfl⟩
      · have : mid ++ [CTok.cls] = w ++ [CTok.opn] := e2
        have := (List.append_inj' this rfl).2
        simp at this
      · have : mid ++ [CTok.cls] = (w ++ .opn :: v) ++ [u] := by rw [e2]; simp
        obtain ⟨e3, e4⟩ := List.append_inj' this rfl
        simp only [List.cons.injEq, and_true] at e4
        have k1 := hm w ⟨.opn :: v, e3.symm⟩
        have k2 := h4 (v ++ [u]) (by simp)
        rw [e3] at he
        rw [← e4] at k2
        simp [closes, opens] at k1 k2 he
        omega
  · -- in front of ours
    cases w with
    | nil =>
      simp only [List.nil_append, List.cons.injEq, true_and] at e2
      have := h4 mid' (List.prefix_refl _)
      rw [e2] at this
      simp [closes, opens] at this he
      omega
    | cons t w =>
      simp only [List.cons_append, List.cons.injEq] at e2
      obtain ⟨rfl, e2⟩ := e2
      -- the parenthesis is in Q
      rcases List.append_eq_append_iff.1 e1 with ⟨y, f1, f2⟩ | ⟨y, f1, f2⟩
      · cases y with
        | nil => simp at f2
        | cons z y =>
          simp only [List.cons_append, List.cons.injEq] at f2
          have : CTok.opn ∈ nls := by rw [f2.2]; simp
          exact absurd (hb _ this) (by simp)
      · cases y with
        | nil => simp at f2
        | cons z y =>
          simp only [List.cons_append, List.cons.injEq] at f2
          obtain ⟨rfl, f2⟩ := f2
          refine hq ⟨a, m, nls', y, by rw [f1]; simp, h2, h3, fun p hp => h4 p (hp.trans ?_)⟩
          rw [e2, f2]
          simp

/-- No name of the table waits for its parenthesis. -/
def NoPend (table : List Line) (P : List CTok) : Prop := ∀ a m nls, P = a ++ .name m :: nls → m ∈ table → Breaks nls → False

theorem noPend_snoc {table : List Line} {P : List CTok} {t : CTok} (h1 : t = .nl → NoPend table P) (h2 : ∀ m ∈ table, t ≠ .name m) :
    NoPend table (P ++ [t]) := by
  intro a m nls h hm hb
  rcases List.eq_nil_or_concat nls with rfl | ⟨w, u, rfl⟩
  · have := (List.append_inj' h rfl).2
    simp only [List.cons.injEq, and_true] at this
    exact h2 m hm this
  · have e : P ++ [t] = (a ++ .name m :: w) ++ [u] := by rw [h]; simp
    obtain ⟨e1, e2⟩ := List.append_inj' e rfl
    simp only [List.cons.injEq, and_true] at e2
    have hu : u = .nl := hb u (by simp)
    exact h1 (e2.trans hu) a m w e1 hm (fun t ht => hb t (by simp [ht]))

/-- The mark that stands for a call. -/
def markOf (x : Line) : CTok := .name (txMlib ++ x ++ txM)

theorem markOf_inj {x y : Line} (h : markOf x = markOf y) : x = y := by
  have h1 : txMlib ++ x ++ txM = txMlib ++ y ++ txM := CTok.name.inj h
  have h2 := List.append_cancel_right h1
  exact List.append_cancel_left h2

theorem mark_ne {x : Line} {t : CTok} (h : Clean t) : markOf x ≠ t := by
  intro e
  rw [← e] at h
  exact h.1 ⟨[], [77#8, 76#8, 73#8, 66#8, 95#8] ++ x ++ txM, by simp [txMlib]⟩

theorem breaks_replicate (k : Nat) : Breaks (List.replicate k .nl) := fun _ h => (List.mem_replicate.1 h).2

/-- The three parts of the preprocessor. -/
theorem expand_marks {table : List Line} {x : Line} (htab : ∀ n ∈ table, Clean (.name n)) : ∀ (rest : List CTok), (∀ t ∈ rest, Clean t) →
    (∀ P out, expandToks table .text rest = some out → ¬ Inside table P → NoPend table P → (markOf x ∈ out ↔ FoundIn table P rest x)) ∧
    (∀ Q n k out, expandToks table (.pend n k) rest = some out → n ∈ table → ¬ Inside table Q → ¬ Inside table (Q ++ .name n :: List.replicate k .nl) →
      (markOf x ∈ out ↔ (x = n ∧ ∃ nls post, Breaks nls ∧ rest = nls ++ .opn :: post) ∨
        FoundIn table (Q ++ .name n :: List.replicate k .nl) rest x)) ∧
    (∀ Q n nls mid d out, expandToks table (.args n d) rest = some out → n ∈ table → Breaks nls → ¬ Inside table Q →
      (∀ p, p <+: mid → closes p ≤ opens p) → opens mid = closes mid + d →
      (markOf x ∈ out ↔ x = n ∨ FoundIn table (Q ++ .name n :: (nls ++ .opn :: mid)) rest x)) := by
  intro rest
  induction rest with
  | nil =>
    intro _
    refine ⟨?_, ?_, ?_⟩
    · intro P out h _ _
      simp only [expandToks, Option.some.injEq] at h
      subst h
      simp [not_found_nil]
    · intro Q n k out h hn _ _
      simp only [expandToks, Option.some.injEq] at h
      subst h
      have h1 : markOf x ≠ .name n := mark_ne (htab n hn)
      have h2 : markOf x ≠ .nl := by simp [markOf]
      simp [not_found_nil, h1, h2]
    · intro Q n nls mid d out h
      simp [expandToks] at h
  | cons t r ih =>
    intro hc
    have hct : Clean t := hc t (by simp)
    obtain ⟨it, ip, ia⟩ := ih (fun u hu => hc u (by simp [hu]))
    have hmt : markOf x ≠ t := mark_ne hct
    -- a token of the text
    have step : ∀ P out, expandToks table .text r = some out → ¬ Inside table P → NoPend table P → (∀ m ∈ table, t ≠ .name m) →
        (markOf x ∈ t :: out ↔ FoundIn table P (t :: r) x) := by
      intro P out h hi hp hn
      have hi' := inside_snoc (t := t) hi (fun _ => hp)
      rw [found_cons, ← it (P ++ [t]) out h hi' (noPend_snoc (fun _ => hp) hn), List.mem_cons]
      constructor
      · rintro (e | e)
        · exact absurd e hmt
        · exact Or.inr e
      · rintro (⟨h1, h2, _⟩ | e)
        · exact absurd h2 (hn x h1)
        · exact Or.inr e
    -- a token behind a name
    have stepP : ∀ Q n k out, expandToks table .text r = some out → n ∈ table → ¬ Inside table (Q ++ .name n :: List.replicate k .nl) →
        t ≠ .opn → t ≠ .nl → (∀ m ∈ table, t ≠ .name m) →
        (markOf x ∈ CTok.name n :: List.replicate k .nl ++ t :: out ↔ (x = n ∧ ∃ nls post, Breaks nls ∧ t :: r = nls ++ .opn :: post) ∨
          FoundIn table (Q ++ .name n :: List.replicate k .nl) (t :: r) x) := by
      intro Q n k out h hn hi ho hnl hnm
      have hi' := inside_snoc (t := t) hi (fun e => absurd e ho)
      have h1 : markOf x ≠ .name n := mark_ne (htab n hn)
      have h2 : markOf x ≠ .nl := by simp [markOf]
      have h3 : ¬ (x = n ∧ ∃ nls post, Breaks nls ∧ t :: r = nls ++ .opn :: post) := by
        rintro ⟨_, nls, post, hb, e⟩
        cases nls with
        | nil => simp at e; exact ho e.1
        | cons u nls => simp at e; exact hnl (e.1.trans (hb u (by simp)))
      rw [found_cons, ← it _ out h hi' (noPend_snoc (fun e => absurd e hnl) hnm)]
      constructor
      · intro hm
        simp [h1, h2, hmt] at hm
        exact Or.inr (Or.inr hm)
      · rintro (e | ⟨h4, h5, _⟩ | e)
        · exact absurd e h3
        · exact absurd h5 (hnm x h4)
        · simp [e]
    -- a token in the arguments
    have stepA : ∀ Q n nls mid d out, expandToks table (.args n d) r = some out → n ∈ table → Breaks nls → ¬ Inside table Q →
        (∀ p, p <+: mid → closes p ≤ opens p) → opens (mid ++ [t]) = closes (mid ++ [t]) + d →
        (markOf x ∈ out ↔ x = n ∨ FoundIn table (Q ++ .name n :: (nls ++ .opn :: mid)) (t :: r) x) := by
      intro Q n nls mid d out h hn hb hq hm he
      have hm' : ∀ p, p <+: mid ++ [t] → closes p ≤ opens p := by
        intro p hp
        rcases List.prefix_concat_iff.1 hp with rfl | hp
        · omega
        · exact hm p hp
      rw [ia Q n nls (mid ++ [t]) d out h hn hb hq hm' he, found_cons]
      have hin : Inside table (Q ++ .name n :: (nls ++ .opn :: mid)) := inside_args hn hb hm
      constructor
      · rintro (e | e)
        · exact Or.inl e
        · exact Or.inr (Or.inr (by simpa using e))
      · rintro (e | ⟨_, _, _, e⟩ | e)
        · exact Or.inl e
        · exact absurd hin e
        · exact Or.inr (by simpa using e)
    refine ⟨?_, ?_, ?_⟩
    · intro P out h hi hp
      cases t with
      | name n =>
        rw [expandToks] at h
        by_cases hn : n ∈ table
        · rw [if_pos hn] at h
          have hi' : ¬ Inside table (P ++ [.name n]) := inside_snoc hi (fun e => by cases e)
          rw [ip P n 0 out h hn hi (by simpa using hi'), found_cons]
          simp only [List.replicate_zero]
          constructor
          · rintro (⟨rfl, e⟩ | e)
            · exact Or.inl ⟨hn, rfl, e, hi⟩
            · exact Or.inr e
          · rintro (⟨_, h2, e, _⟩ | e)
            · exact Or.inl ⟨(CTok.name.inj h2).symm, e⟩
            · exact Or.inr e
        · rw [if_neg hn] at h
          obtain ⟨o, h1, rfl⟩ := Option.map_eq_some_iff.1 h
          exact step P o h1 hi hp (fun m hm e => hn (CTok.name.inj e ▸ hm))
      | opn =>
        rw [expandToks] at h
        obtain ⟨o, h1, rfl⟩ := Option.map_eq_some_iff.1 h
        exact step P o h1 hi hp (fun m hm e => by cases e)
        all_goals simp
      | cls =>
        rw [expandToks] at h
        obtain ⟨o, h1, rfl⟩ := Option.map_eq_some_iff.1 h
        exact step P o h1 hi hp (fun m hm e => by cases e)
        all_goals simp
      | nl =>
        rw [expandToks] at h
        obtain ⟨o, h1, rfl⟩ := Option.map_eq_some_iff.1 h
        exact step P o h1 hi hp (fun m hm e => by cases e)
        all_goals simp
      | other s =>
        rw [expandToks] at h
        obtain ⟨o, h1, rfl⟩ := Option.map_eq_some_iff.1 h
        exact step P o h1 hi hp (fun m hm e => by cases e)
        all_goals simp
    · intro Q n k out h hn hq hi
      cases t with
      | name m =>
        rw [expandToks] at h
        by_cases hm : m ∈ table
        · rw [if_pos hm] at h
          obtain ⟨o, h1, rfl⟩ := Option.map_eq_some_iff.1 h
          have hi' : ¬ Inside table (Q ++ .name n :: List.replicate k .nl ++ [.name m]) := inside_snoc hi (fun e => by cases e)
          have h1' : markOf x ≠ .name n := mark_ne (htab n hn)
          have h2' : markOf x ≠ .nl := by simp [markOf]
          have e1 : (markOf x ∈ CTok.name n :: List.replicate k .nl ++ o) ↔ markOf x ∈ o := by simp [h1', h2']
          rw [e1, ip (Q ++ .name n :: List.replicate k .nl) m 0 o h1 hm hi (by simpa using hi'), found_cons]
          simp only [List.replicate_zero]
          constructor
          · rintro (⟨rfl, e⟩ | e)
            · exact Or.inr (Or.inl ⟨hm, rfl, e, hi⟩)
            · exact Or.inr (Or.inr e)
          · rintro (⟨_, nls, post, hb, e⟩ | ⟨_, h2, e, _⟩ | e)
            · cases nls with
              | nil => simp at e
              | cons u nls =>
                simp at e
                have := hb u (by simp)
                rw [← e.1] at this
                cases this
            · exact Or.inl ⟨(CTok.name.inj h2).symm, e⟩
            · exact Or.inr e
        · rw [if_neg hm] at h
          obtain ⟨o, h1, rfl⟩ := Option.map_eq_some_iff.1 h
          exact stepP Q n k o h1 hn hi (by simp) (by simp) (fun y hy e => hm (CTok.name.inj e ▸ hy))
      | opn =>
        rw [expandToks] at h
        rw [ia Q n (List.replicate k .nl) [] 0 out h hn (breaks_replicate k) hq (by simp [closes]) (by simp [closes, opens]), found_cons]
        · constructor
          · rintro (rfl | e)
            · exact Or.inl ⟨rfl, [], r, by simp [Breaks], rfl⟩
            · exact Or.inr (Or.inr (by simpa using e))
          · rintro (⟨rfl, _⟩ | ⟨_, h2, _⟩ | e)
            · exact Or.inl rfl
            · cases h2
            · exact Or.inr (by simpa using e)
      | nl =>
        rw [expandToks] at h
        have hi' : ¬ Inside table (Q ++ .name n :: List.replicate k .nl ++ [.nl]) := inside_snoc hi (fun e => by cases e)
        have e0 : Q ++ CTok.name n :: List.replicate k .nl ++ [.nl] = Q ++ .name n :: List.replicate (k + 1) .nl := by
          rw [List.replicate_succ']; simp
        rw [e0] at hi'
        rw [ip Q n (k + 1) out h hn hq hi', found_cons, e0]
        constructor
        · rintro (⟨rfl, nls, post, hb, e⟩ | e)
          · exact Or.inl ⟨rfl, .nl :: nls, post, fun t ht => by
              rcases List.mem_cons.1 ht with rfl | ht
              · rfl
              · exact hb t ht, by rw [e]; rfl⟩
          · exact Or.inr (Or.inr e)
        · rintro (⟨rfl, nls, post, hb, e⟩ | ⟨_, h2, _⟩ | e)
          · cases nls with
            | nil => simp at e
            | cons u nls =>
              simp at e
              exact Or.inl ⟨rfl, nls, post, fun t ht => hb t (by simp [ht]), e.2⟩
          · cases h2
          · exact Or.inr e
      | cls =>
        rw [expandToks] at h
        obtain ⟨o, h1, rfl⟩ := Option.map_eq_some_iff.1 h
        exact stepP Q n k o h1 hn hi (by simp) (by simp) (fun m hm e => by cases e)
        all_goals simp
      | other s =>
        rw [expandToks] at h
        obtain ⟨o, h1, rfl⟩ := Option.map_eq_some_iff.1 h
        exact stepP Q n k o h1 hn hi (by simp) (by simp) (fun m hm e => by cases e)
        all_goals simp
    · intro Q n nls mid d out h hn hb hq hm he
      cases t with
      | opn =>
        rw [expandToks] at h
        exact stepA Q n nls mid (d + 1) out h hn hb hq hm (by simp [opens, closes] at he ⊢; omega)
      | cls =>
        cases d with
        | zero =>
          rw [expandToks] at h
          obtain ⟨o, h1, rfl⟩ := Option.map_eq_some_iff.1 h
          have hcl := inside_close (table := table) (n := n) hq hb hm (by omega)
          have hnp : NoPend table (Q ++ .name n :: (nls ++ .opn :: mid) ++ [CTok.cls]) :=
            noPend_snoc (fun e => by cases e) (fun m _ e => by cases e)
          rw [found_cons, ← it (Q ++ .name n :: (nls ++ .opn :: mid) ++ [CTok.cls]) o h1 (by simpa using hcl) hnp]
          simp only [List.mem_cons]
          constructor
          · rintro (e | e | e | e)
            · exact Or.inl (markOf_inj e)
            · cases e
            · cases e
            · exact Or.inr (Or.inr e)
          · rintro (rfl | ⟨_, h2, _⟩ | e)
            · exact Or.inl rfl
            · cases h2
            · exact Or.inr (Or.inr (Or.inr e))
        | succ d =>
          rw [expandToks] at h
          exact stepA Q n nls mid d out h hn hb hq hm (by simp [opens, closes] at he ⊢; omega)
      | nl =>
        rw [expandToks] at h
        exact stepA Q n nls mid d out h hn hb hq hm (by simp [opens, closes] at he ⊢; omega)
        all_goals simp
      | name m =>
        rw [expandToks] at h
        exact stepA Q n nls mid d out h hn hb hq hm (by simp [opens, closes] at he ⊢; omega)
        all_goals simp
      | other s =>
        rw [expandToks] at h
        exact stepA Q n nls mid d out h hn hb hq hm (by simp [opens, closes] at he ⊢; omega)
        all_goals simp

/-! ### The text -/

/-- No `_M_`. -/
def noMM : Line → Bool
  | [] => true
  | b :: r => !begins txM (b :: r) && noMM r

/-- No `_M`. -/
def noM2 : Line → Bool
  | [] => true
  | b :: r => !begins [95#8, 77#8] (b :: r) && noM2 r

theorem begins_nil (l : Line) : begins [] l = true := by cases l <;> rfl
theorem begins_empty (a : Byte) (p : Line) : begins (a :: p) [] = false := rfl
theorem begins_cons (a b : Byte) (p l : Line) : begins (a :: p) (b :: l) = (a == b && begins p l) := rfl

theorem noMM_of {l : Line} (h : ¬ Occurs txM l) : noMM l = true := by
  induction l with
  | nil => rfl
  | cons b r ih =>
    rw [noMM, Bool.and_eq_true, Bool.not_eq_true']
    refine ⟨?_, ih fun ho => h (ho.trans (List.suffix_cons b r).isInfix)⟩
    cases hb : begins txM (b :: r) with
    | false => rfl
    | true => exact absurd (begins_iff.1 hb).isInfix h

theorem noMM_append {w h : Line} (hw : noMM w = true) (hh : noMM h = true) : noMM (w ++ 32#8 :: h) = true := by
  induction w with
  | nil => simp [noMM, hh, begins_nil, begins_empty, begins_cons, txM]
  | cons b w ih =>
    rw [noMM, Bool.and_eq_true, Bool.not_eq_true'] at hw
    rw [List.cons_append, noMM, Bool.and_eq_true, Bool.not_eq_true']
    refine ⟨?_, ih hw.2⟩
    have := hw.1
    match w with
    | [] => simp [begins_nil, begins_empty, begins_cons, txM]
    | [c] => simp [begins_nil, begins_empty, begins_cons, txM]
    | c :: d :: w => simpa [begins_nil, begins_empty, begins_cons, txM] using this

theorem mlib_mm {l : Line} (h : begins txMlib l = true) : begins txM l = true := by
  rw [begins_iff] at h ⊢
  exact List.IsPrefix.trans ⟨[77#8, 76#8, 73#8, 66#8, 95#8], rfl⟩ h

theorem sedName_none {h : Line} (hh : noMM h = true) : sedName h = none := by
  induction h with
  | nil => rfl
  | cons b r ih =>
    rw [noMM, Bool.and_eq_true, Bool.not_eq_true'] at hh
    rw [sedName, ih hh.2]
    simp only
    rw [if_neg]
    intro h
    rw [mlib_mm h] at hh
    exact absurd hh.1 (by simp)

theorem beforeLast_none {h : Line} (hh : noMM h = true) : beforeLast h = none := by
  induction h with
  | nil => rfl
  | cons b r ih =>
    rw [noMM, Bool.and_eq_true, Bool.not_eq_true'] at hh
    rw [beforeLast, ih hh.2]
    simp [hh.1]

theorem beforeLast_some {h : Line} (hh : noMM h = true) (n : Line) : beforeLast (n ++ (txM ++ 32#8 :: h)) = some n := by
  induction n with
  | nil =>
    have h1 : noMM ([77#8, 95#8] ++ 32#8 :: h) = true := noMM_append (by decide) hh
    rw [List.nil_append, txM, List.cons_append, beforeLast, beforeLast_none h1]
    simp [begins_nil, begins_empty, begins_cons, txM]
  | cons b n ih => rw [List.cons_append, beforeLast, ih]

/-- Inside of a name in a mark no other mark begins. -/
theorem begins_name {b : Byte} {n v : Line} (h : noM2 (b :: n) = true) : begins txMlib (b :: (n ++ (txM ++ v))) = false := by
  rw [noM2, Bool.and_eq_true, Bool.not_eq_true'] at h
  have h1 := h.1
  match n with
  | [] => simp [begins_nil, begins_empty, begins_cons, txMlib, txM]
  | c :: n =>
    simp only [begins_nil, begins_cons, txMlib, List.cons_append, Bool.and_true] at h1 ⊢
    rw [← Bool.and_assoc, h1]
    rfl

theorem sedName_inner {h : Line} (hh : noMM h = true) : ∀ n : Line, noM2 n = true → sedName (n ++ (txM ++ 32#8 :: h)) = none := by
  intro n
  induction n with
  | nil =>
    intro _
    have h1 : noMM ([77#8, 95#8] ++ 32#8 :: h) = true := noMM_append (by decide) hh
    rw [List.nil_append, txM, List.cons_append, sedName, sedName_none h1]
    simp [begins_nil, begins_empty, begins_cons, txMlib]
  | cons b n ih =>
    intro hn
    rw [List.cons_append, sedName]
    have h2 : noM2 n = true := by rw [noM2, Bool.and_eq_true] at hn; exact hn.2
    rw [ih h2]
    simp only
    rw [if_neg]
    rw [begins_name hn]
    simp

theorem sedName_mark {h n : Line} (hh : noMM h = true) (hn : noM2 (95#8 :: n) = true) :
    sedName (txMlib ++ n ++ txM ++ 32#8 :: h) = some n := by
  have h1 := sedName_inner hh (95#8 :: n) hn
  have e : txMlib ++ n ++ txM ++ 32#8 :: h = [95#8, 77#8, 95#8, 77#8, 76#8, 73#8, 66#8] ++ ((95#8 :: n) ++ (txM ++ 32#8 :: h)) := by
    simp [txMlib]
  rw [e]
  generalize hz : (95#8 :: n) ++ (txM ++ 32#8 :: h) = z at h1
  have hb := beforeLast_some hh n
  have hz' : z.drop 1 = n ++ (txM ++ 32#8 :: h) := by rw [← hz]; rfl
  have hz0 : begins [95#8] z = true := by rw [← hz]; simp [begins_nil, begins_empty, begins_cons]
  simp only [List.cons_append, List.nil_append, sedName, h1]
  simp only [begins_nil, begins_empty, begins_cons, txMlib]
  simp [begins_nil, begins_empty, begins_cons, hz0, hz', hb]

theorem sedSplit_word {w : Line} (hw : noMM w = true) (v : Line) : sedSplit 0 (w ++ 32#8 :: v) = w ++ 32#8 :: sedSplit 0 v := by
  induction w with
  | nil => simp [sedSplit, begins_nil, begins_empty, begins_cons, txMlib]
  | cons b w ih =>
    rw [noMM, Bool.and_eq_true, Bool.not_eq_true'] at hw
    rw [List.cons_append, sedSplit, if_neg, ih hw.2]
    · rfl
    · intro h
      have h1 := mlib_mm h
      have h2 := hw.1
      match w with
      | [] => simp [begins_nil, begins_empty, begins_cons, txM] at h1
      | [c] => simp [begins_nil, begins_empty, begins_cons, txM] at h1
      | c :: d :: w => rw [show begins txM (b :: c :: d :: w) = true by simpa [begins_nil, begins_empty, begins_cons, txM] using h1] at h2; cases h2

theorem sedSplit_inner (v : Line) : ∀ n : Line, noM2 n = true → sedSplit 0 (n ++ (txM ++ 32#8 :: v)) = n ++ (txM ++ 32#8 :: sedSplit 0 v) := by
  intro n
  induction n with
  | nil => intro _; simp [txM, sedSplit, begins_nil, begins_empty, begins_cons, txMlib]
  | cons b n ih =>
    intro hn
    have h2 : noM2 n = true := by rw [noM2, Bool.and_eq_true] at hn; exact hn.2
    rw [List.cons_append, sedSplit, if_neg, ih h2]
    · rfl
    · rw [begins_name hn]; simp

theorem sedSplit_mark {n : Line} (hn : noM2 n = true) (v : Line) :
    sedSplit 0 (txMlib ++ n ++ txM ++ 32#8 :: v) = 10#8 :: (txMlib ++ n ++ txM ++ 32#8 :: sedSplit 0 v) := by
  have := sedSplit_inner v n hn
  have e : txMlib ++ n ++ txM ++ 32#8 :: v = txMlib ++ (n ++ (txM ++ 32#8 :: v)) := by simp
  have e' : txMlib ++ n ++ txM ++ 32#8 :: sedSplit 0 v = txMlib ++ (n ++ (txM ++ 32#8 :: sedSplit 0 v)) := by simp
  rw [e, e', ← this]
  generalize n ++ (txM ++ 32#8 :: v) = z
  simp [txMlib, sedSplit, begins_nil, begins_empty, begins_cons]

theorem linesOf_word {w T h : Line} {ls : List Line} (hw : 10#8 ∉ w) (hT : linesOf T = h :: ls) : linesOf (w ++ T) = (w ++ h) :: ls := by
  induction w with
  | nil => exact hT
  | cons b w ih =>
    rw [List.cons_append, linesOf, if_neg (fun e => hw (by simp [e])), ih (fun e => hw (by simp [e]))]
    rfl

/-- What is in the output: tokens of the source, and marks. -/
theorem expand_toks {table : List Line} (htab : ∀ n ∈ table, Clean (.name n)) : ∀ (rest : List CTok), (∀ t ∈ rest, Clean t) →
    ∀ (m : GMode) (out : List CTok), (match m with | .text => True | .pend n _ => n ∈ table | .args n _ => n ∈ table) →
      expandToks table m rest = some out → ∀ t ∈ out, Clean t ∨ ∃ x ∈ table, t = markOf x := by
  intro rest
  induction rest with
  | nil =>
    intro _ m out hm h t ht
    cases m with
    | text => simp [expandToks] at h; subst h; simp at ht
    | pend n k =>
      simp only [expandToks, Option.some.injEq] at h
      subst h
      rcases List.mem_cons.1 ht with rfl | ht
      · exact Or.inl (htab n hm)
      · rw [(List.mem_replicate.1 ht).2]; exact Or.inl trivial
    | args n d => simp [expandToks] at h
  | cons u r ih =>
    intro hc m out hm h
    have hu : Clean u := hc u (by simp)
    have ih := ih (fun t ht => hc t (by simp [ht]))
    have one : ∀ out', expandToks table .text r = some out' → ∀ t ∈ u :: out', Clean t ∨ ∃ x ∈ table, t = markOf x := by
      intro out' h' t ht
      rcases List.mem_cons.1 ht with rfl | ht
      · exact Or.inl hu
      · exact ih .text out' trivial h' t ht
    have two : ∀ n k (o : List CTok), n ∈ table → (∀ t ∈ o, Clean t ∨ ∃ x ∈ table, t = markOf x) →
        ∀ t ∈ CTok.name n :: List.replicate k .nl ++ o, Clean t ∨ ∃ x ∈ table, t = markOf x := by
      intro n k o hn ho t ht
      simp only [List.cons_append, List.mem_cons, List.mem_append] at ht
      rcases ht with rfl | ht | ht
      · exact Or.inl (htab n hn)
      · rw [(List.mem_replicate.1 ht).2]; exact Or.inl trivial
      · exact ho t ht
    cases m with
    | text =>
      cases u with
      | name n =>
        rw [expandToks] at h
        by_cases hn : n ∈ table
        · rw [if_pos hn] at h
          exact ih (.pend n 0) out hn h
        · rw [if_neg hn] at h
          obtain ⟨o, h1, rfl⟩ := Option.map_eq_some_iff.1 h
          exact one o h1
      | opn | cls | nl | other s =>
        rw [expandToks] at h
        obtain ⟨o, h1, rfl⟩ := Option.map_eq_some_iff.1 h
        exact one o h1
        all_goals simp
    | pend n k =>
      cases u with
      | name m =>
        rw [expandToks] at h
        by_cases hn : m ∈ table
        · rw [if_pos hn] at h
          obtain ⟨o, h1, rfl⟩ := Option.map_eq_some_iff.1 h
          exact two n k o hm (ih (.pend m 0) o hn h1)
        · rw [if_neg hn] at h
          obtain ⟨o, h1, rfl⟩ := Option.map_eq_some_iff.1 h
          exact two n k _ hm (one o h1)
      | opn => rw [expandToks] at h; exact ih (.args n 0) out hm h
      | nl => rw [expandToks] at h; exact ih (.pend n (k + 1)) out hm h
      | cls | other s =>
        rw [expandToks] at h
        obtain ⟨o, h1, rfl⟩ := Option.map_eq_some_iff.1 h
        exact two n k _ hm (one o h1)
        all_goals simp
    | args n d =>
      cases u with
      | opn => rw [expandToks] at h; exact ih (.args n (d + 1)) out hm h
      | cls =>
        cases d with
        | zero =>
          rw [expandToks] at h
          obtain ⟨o, h1, rfl⟩ := Option.map_eq_some_iff.1 h
          intro t ht
          simp only [List.mem_cons] at ht
          rcases ht with rfl | rfl | rfl | ht
          · exact Or.inr ⟨n, hm, rfl⟩
          · exact Or.inl trivial
          · exact Or.inl trivial
          · exact ih .text o trivial h1 t ht
        | succ d => rw [expandToks] at h; exact ih (.args n d) out hm h
      | name m | nl | other s =>
        rw [expandToks] at h
        exact ih (.args n d) out hm h
        all_goals simp

/-- A name that can stand in a mark. -/
def NameOk (n : Line) : Prop := noM2 (95#8 :: n) = true ∧ 10#8 ∉ n

theorem noMM_of_noM2 : ∀ {n : Line}, noM2 n = true → noMM n = true := by
  intro n
  induction n with
  | nil => intro _; rfl
  | cons b n ih =>
    intro h
    rw [noM2, Bool.and_eq_true, Bool.not_eq_true'] at h
    rw [noMM, Bool.and_eq_true, Bool.not_eq_true']
    refine ⟨?_, ih h.2⟩
    have h1 := h.1
    cases n with
    | nil => simp [txM, begins_cons, begins_empty]
    | cons c n =>
      simp only [begins_nil, begins_cons, txM, Bool.and_true] at h1 ⊢
      rw [← Bool.and_assoc, h1]
      rfl

theorem occurs_noMM {l : Line} (h : noMM l = true) : ¬ Occurs txM l := by
  rintro ⟨a, b, e⟩
  induction a generalizing l with
  | nil =>
    rw [← e] at h
    simp [noMM, txM, begins_cons, begins_nil] at h
  | cons c a ih =>
    cases l with
    | nil => simp at e
    | cons d l =>
      simp only [List.cons_append, List.cons.injEq] at e
      rw [noMM, Bool.and_eq_true] at h
      exact ih h.2 (by simpa using e.2)

theorem nameOk_clean {n : Line} (h : NameOk n) : Clean (.name n) := by
  have h1 : noM2 n = true := by have := h.1; rw [noM2, Bool.and_eq_true] at this; exact this.2
  exact ⟨occurs_noMM (noMM_of_noM2 h1), h.2⟩

/-- The names `sed` finds are those of the marks. -/
theorem sed_names : ∀ (out : List CTok), (∀ t ∈ out, Clean t ∨ ∃ x, NameOk x ∧ t = markOf x) →
    ∃ h ls, linesOf (sedSplit 0 (printToks out)) = h :: ls ∧ noMM h = true ∧ ∀ x, x ∈ ls.filterMap sedName ↔ markOf x ∈ out := by
  intro out
  induction out with
  | nil => intro _; exact ⟨[], [], rfl, rfl, by simp⟩
  | cons t r ih =>
    intro hc
    obtain ⟨h, ls, h1, h2, h3⟩ := ih (fun u hu => hc u (by simp [hu]))
    -- a word and a blank
    have word : ∀ w, printToks (t :: r) = w ++ 32#8 :: printToks r → noMM w = true → 10#8 ∉ w → (∀ x, markOf x ≠ t) →
        ∃ h ls, linesOf (sedSplit 0 (printToks (t :: r))) = h :: ls ∧ noMM h = true ∧ ∀ x, x ∈ ls.filterMap sedName ↔ markOf x ∈ t :: r := by
      intro w hw hn h10 hx
      refine ⟨w ++ 32#8 :: h, ls, ?_, noMM_append hn h2, fun x => ?_⟩
      · rw [hw, sedSplit_word hn, show w ++ 32#8 :: sedSplit 0 (printToks r) = (w ++ [32#8]) ++ sedSplit 0 (printToks r) by simp,
          linesOf_word (by simp [h10]) h1]
        simp
      · rw [h3 x, List.mem_cons]
        exact ⟨Or.inr, fun e => e.resolve_left (hx x)⟩
    rcases hc t (by simp) with ht | ⟨x, hx, rfl⟩
    · have hx : ∀ x, markOf x ≠ t := fun x => mark_ne ht
      cases t with
      | name n => exact word n rfl (noMM_of ht.1) ht.2 hx
      | other s => exact word s rfl (noMM_of ht.1) ht.2 hx
      | opn => exact word [40#8] rfl (by decide) (by decide) hx
      | cls => exact word [41#8] rfl (by decide) (by decide) hx
      | nl =>
        refine ⟨[], h :: ls, ?_, rfl, fun x => ?_⟩
        · rw [printToks, sedSplit, if_neg (by simp [txMlib, begins_cons]), linesOf, if_pos rfl, h1]
        · rw [List.filterMap_cons, sedName_none h2, h3 x, List.mem_cons]
          exact ⟨Or.inr, fun e => e.resolve_left (hx x)⟩
    · have hn : noM2 x = true := by have := hx.1; rw [noM2, Bool.and_eq_true] at this; exact this.2
      refine ⟨[], (txMlib ++ x ++ txM ++ 32#8 :: h) :: ls, ?_, rfl, fun y => ?_⟩
      · rw [markOf, printToks, sedSplit_mark hn, linesOf, if_pos rfl,
          show txMlib ++ x ++ txM ++ 32#8 :: sedSplit 0 (printToks r) = (txMlib ++ x ++ txM ++ [32#8]) ++ sedSplit 0 (printToks r) by simp,
          linesOf_word (by simp [txMlib, txM, hx.2]) h1]
        simp
      · rw [List.filterMap_cons, sedName_mark h2 hx.1, List.mem_cons, List.mem_cons, h3 y]
        exact ⟨fun e => e.elim (fun e => Or.inl (by rw [e])) Or.inr, fun e => e.elim (fun e => Or.inl (markOf_inj e)) Or.inr⟩

/-- The preprocessor finds an error only if the arguments of a call are not closed. -/
theorem expand_some {table : List Line} : ∀ (rest : List CTok),
    (∀ P, ¬ Inside table (P ++ rest) → (expandToks table .text rest).isSome = true) ∧
    (∀ Q n k, n ∈ table → ¬ Inside table (Q ++ .name n :: List.replicate k .nl ++ rest) → (expandToks table (.pend n k) rest).isSome = true) ∧
    (∀ Q n nls mid d, n ∈ table → Breaks nls → (∀ p, p <+: mid → closes p ≤ opens p) → opens mid = closes mid + d →
      ¬ Inside table (Q ++ .name n :: (nls ++ .opn :: mid) ++ rest) → (expandToks table (.args n d) rest).isSome = true) := by
  intro rest
  induction rest with
  | nil =>
    refine ⟨fun P _ => rfl, fun Q n k _ _ => rfl, fun Q n nls mid d hn hb hm _ h => ?_⟩
    exact absurd (inside_args hn hb hm) (by simpa using h)
  | cons t r ih =>
    obtain ⟨it, ip, ia⟩ := ih
    have stepA : ∀ Q n nls mid d, n ∈ table → Breaks nls → (∀ p, p <+: mid → closes p ≤ opens p) →
        opens (mid ++ [t]) = closes (mid ++ [t]) + d → ¬ Inside table (Q ++ .name n :: (nls ++ .opn :: mid) ++ t :: r) →
        (expandToks table (.args n d) r).isSome = true := by
      intro Q n nls mid d hn hb hm he hi
      refine ia Q n nls (mid ++ [t]) d hn hb ?_ he (by simpa using hi)
      intro p hp
      rcases List.prefix_concat_iff.1 hp with rfl | hp
      · omega
      · exact hm p hp
    refine ⟨fun P h => ?_, fun Q n k hn h => ?_, fun Q n nls mid d hn hb hm he h => ?_⟩
    · have h' : ¬ Inside table ((P ++ [t]) ++ r) := by simpa using h
      cases t with
      | name n =>
        rw [expandToks]
        by_cases hn : n ∈ table
        · rw [if_pos hn]; exact ip P n 0 hn (by simpa using h)
        · rw [if_neg hn]
          have := it _ h'
          simpa using this
      | opn | cls | nl | other s =>
        rw [expandToks]
        have := it _ h'
        simpa using this
        all_goals simp
    · have h' : ¬ Inside table ((Q ++ .name n :: List.replicate k .nl ++ [t]) ++ r) := by simpa using h
      cases t with
      | name m =>
        rw [expandToks]
        by_cases hm : m ∈ table
        · rw [if_pos hm]
          have := ip (Q ++ .name n :: List.replicate k .nl) m 0 hm (by simpa using h)
          simpa using this
        · rw [if_neg hm]
          have := it _ h'
          simpa using this
      | opn =>
        rw [expandToks]
        exact ia Q n (List.replicate k .nl) [] 0 hn (breaks_replicate k) (by simp [closes]) (by simp [closes, opens]) (by simpa using h)
      | nl =>
        rw [expandToks]
        refine ip Q n (k + 1) hn ?_
        rw [List.replicate_succ']
        simpa using h
      | cls | other s =>
        rw [expandToks]
        have := it _ h'
        simpa using this
        all_goals simp
    · cases t with
      | opn =>
        rw [expandToks]
        exact stepA Q n nls mid (d + 1) hn hb hm (by simp [opens, closes] at he ⊢; omega) h
      | cls =>
        cases d with
        | zero =>
          rw [expandToks]
          have := it (Q ++ .name n :: (nls ++ .opn :: mid) ++ [CTok.cls]) (by simpa using h)
          simpa using this
        | succ d =>
          rw [expandToks]
          exact stepA Q n nls mid d hn hb hm (by simp [opens, closes] at he ⊢; omega) h
      | nl | name m | other s =>
        rw [expandToks]
        exact stepA Q n nls mid d hn hb hm (by simp [opens, closes] at he ⊢; omega) h
        all_goals simp

theorem mem_dropAgain {x : Line} {l : List Line} : x ∈ dropAgain l ↔ x ∈ l := by
  induction l with
  | nil => simp [dropAgain]
  | cons y l ih =>
    rw [dropAgain]
    by_cases h : y ∈ l
    · rw [if_pos h, ih, List.mem_cons]
      exact ⟨Or.inr, fun e => e.elim (fun e => e ▸ h) id⟩
    · rw [if_neg h, List.mem_cons, List.mem_cons, ih]

theorem nodup_dropAgain (l : List Line) : (dropAgain l).Nodup := by
  induction l with
  | nil => simp [dropAgain]
  | cons y l ih =>
    rw [dropAgain]
    by_cases h : y ∈ l
    · rw [if_pos h]; exact ih
    · rw [if_neg h]; exact List.nodup_cons.2 ⟨fun e => h (mem_dropAgain.1 e), ih⟩

/-- C113 (partial: the sources contain nothing that looks like a mark): `--genconf` makes a configuration for every source in which the calls of library
functions are closed. It names, once each, exactly the library functions called outside of the arguments of other library calls. -/
theorem C113_names_partial {table : List Line} {src : List CTok} (htab : ∀ n ∈ table, NameOk n) (hsrc : ∀ t ∈ src, Clean t)
    (hcl : ¬ Inside table src) :
    ∃ names, genconf table src = some names ∧ names.Nodup ∧
      ∀ x, x ∈ names ↔ x ∈ table ∧ ∃ pre, CallAt src pre x ∧ ¬ Inside table pre := by
  have hs := (expand_some (table := table) src).1 [] (by simpa using hcl)
  obtain ⟨out, ho⟩ := Option.isSome_iff_exists.1 hs
  have htab' : ∀ n ∈ table, Clean (.name n) := fun n hn => nameOk_clean (htab n hn)
  have hi : ¬ Inside table [] := by
    rintro ⟨a, m, nls, mid, h, _⟩
    cases a <;> simp at h
  have hp : NoPend table [] := by
    intro a m nls h
    cases a <;> simp at h
  obtain ⟨h, ls, h1, h2, h3⟩ := sed_names out (fun t ht => (expand_toks htab' src hsrc .text out trivial ho t ht).imp_right
    (fun ⟨x, hx, e⟩ => ⟨x, htab x hx, e⟩))
  refine ⟨_, by unfold genconf; rw [ho]; rfl, nodup_dropAgain _, fun x => ?_⟩
  rw [mem_dropAgain, h1, List.filterMap_cons, sedName_none h2, h3 x, (expand_marks htab' src hsrc).1 [] out ho hi hp]
  simp [FoundIn]

/-! ### The table of minilib.genconf.h -/

theorem table_ok : ∀ n ∈ genconfTable, NameOk n := by
  have h : ∀ n ∈ genconfTable, noM2 (95#8 :: n) = true ∧ 10#8 ∉ n := by decide +kernel
  exact h

/-- C113: the names of two lists are the same ones. The macros cover all switches of the library but `getopt` (and `mini_0`, no function). -/
theorem C113_table (i : Nat) (h : i < Sw.count) (h0 : i ≠ Sw.m_0) : switchNames.getD i [] ∈ genconfTable ↔ i ≠ Sw.m_getopt := by
  have hall : ∀ i, i < 296 → i ≠ 0 → (switchNames.getD i [] ∈ genconfTable ↔ i ≠ Sw.m_getopt) := by decide +kernel
  exact hall i h h0

/-- The configuration as a set of switches. -/
def confOf (names : List Line) (i : Nat) : Bool := decide (i < Sw.count ∧ i ≠ Sw.m_0 ∧ switchNames.getD i [] ∈ names)

/-- C113 (partial: none of the six of C106 is called, the function is none of those of C106_calls_exact, and not getopt): with the configuration made for a
source, everything that a library function needs which the source calls, outside of the arguments of another, is compiled. -/
theorem C113_compiled_partial {src : List CTok} (hsrc : ∀ t ∈ src, Clean t) (hcl : ¬ Inside genconfTable src) :
    ∃ names, genconf genconfTable src = some names ∧
      ((∀ m ∈ depShort, confOf names m = false) → ∀ f, f < Sw.count → f ≠ Sw.m_0 → f ≠ Sw.m_getopt → f ∉ callWays.map (·.1) →
        (∃ pre, CallAt src pre (switchNames.getD f []) ∧ ¬ Inside genconfTable pre) →
        ∀ g, CalledFrom callTable (switches (confOf names)) f g → Compiled definedBy (switches (confOf names)) g) := by
  obtain ⟨names, h1, h2, h3⟩ := C113_names_partial table_ok hsrc hcl
  refine ⟨names, h1, fun hs f hf h0 hg hw hp g hc => ?_⟩
  refine C106_calls_partial (confOf names) hs f ?_ hw g hc
  exact decide_eq_true ⟨hf, h0, (h3 _).2 ⟨(C113_table f hf h0).2 hg, hp⟩⟩

/-- `strlen ( x ) ; printf ( x )`, as tokens. -/
def srcOk : List CTok :=
  [.name (nb [115, 116, 114, 108, 101, 110]), .opn, .other [120#8], .cls, .other [59#8], .nl,
   .name (nb [112, 114, 105, 110, 116, 102]), .nl, .opn, .other [120#8], .cls]

example : genconf genconfTable srcOk = some [nb [115, 116, 114, 108, 101, 110], nb [112, 114, 105, 110, 116, 102]] := by decide +kernel

example : CallAt srcOk (srcOk.take 6) (switchNames.getD Sw.m_printf []) := ⟨[.nl], [.other [120#8], .cls], by simp [Breaks], by decide +kernel⟩

/-- The whole claim of C113: every library function called is named. -/
def C113_full : Prop :=
  ∀ (src : List CTok), (∀ t ∈ src, Clean t) → ¬ Inside genconfTable src → ∀ i, i < Sw.count → i ≠ Sw.m_0 →
    (∃ pre, CallAt src pre (switchNames.getD i [])) → ∃ names, genconf genconfTable src = some names ∧ switchNames.getD i [] ∈ names

/-- `printf ( strlen ( ) )`. -/
def srcNested : List CTok :=
  [.name (nb [112, 114, 105, 110, 116, 102]), .opn, .name (nb [115, 116, 114, 108, 101, 110]), .opn, .cls, .cls]

/-- `getopt ( )`. -/
def srcGetopt : List CTok := [.name (nb [103, 101, 116, 111, 112, 116]), .opn, .cls]

theorem nested_names : genconf genconfTable srcNested = some [nb [112, 114, 105, 110, 116, 102]] := by decide +kernel

/-- More parentheses open than closed inside. -/
theorem not_inside_of {table : List Line} {src : List CTok} (h : ∀ i, i < src.length → (∃ m ∈ table, src[i]? = some (.name m)) →
    ∃ j, j ≤ src.length ∧ i < j ∧ opens ((src.take j).drop i) ≤ closes ((src.take j).drop i) ∧ 0 < closes ((src.take j).drop i)) :
    ¬ Inside table src := by
  rintro ⟨a, m, nls, mid, h1, h2, h3, h4⟩
  obtain ⟨j, h5, h6, h7, h8⟩ := h a.length (by rw [h1]; simp) ⟨m, h2, by rw [h1]; simp⟩
  have e1 : (src.take j).drop a.length = (CTok.name m :: (nls ++ .opn :: mid)).take (j - a.length) := by
    rw [List.drop_take, h1]
    simp
  rw [e1] at h7 h8
  generalize j - a.length = k at h7 h8
  have hn0 : ∀ l : List CTok, Breaks l → closes l = 0 ∧ opens l = 0 := by
    intro l hl
    constructor
    · exact List.count_eq_zero.2 (fun e => absurd (hl _ e) (by simp))
    · exact List.count_eq_zero.2 (fun e => absurd (hl _ e) (by simp))
  cases k with
  | zero => simp [closes] at h8
  | succ k =>
    rw [List.take_succ_cons] at h7 h8
    by_cases hk : k ≤ nls.length
    · rw [List.take_append_of_le_length hk] at h8
      have := (hn0 (nls.take k) (fun t ht => h3 t (List.mem_of_mem_take ht))).1
      simp [closes] at h8 this
      exact absurd h8 (List.count_eq_zero.1 this)
    · obtain ⟨q, rfl⟩ : ∃ q, k = nls.length + (q + 1) := ⟨k - nls.length - 1, by omega⟩
      rw [List.take_append, List.take_of_length_le (by omega)] at h7
      simp only [Nat.add_sub_cancel_left, List.take_succ_cons] at h7
      have h9 := h4 (mid.take q) (List.take_prefix _ _)
      have h10 := hn0 nls h3
      simp [closes, opens] at h7 h9 h10
      omega

/-- C113 fails: a call in the arguments of another library call is not found, the preprocessor drops the arguments. -/
theorem C113_refuted : ¬ C113_full := by
  intro h
  obtain ⟨names, h1, h2⟩ := h srcNested
    (by
      intro t ht
      simp only [srcNested, List.mem_cons, List.not_mem_nil, or_false] at ht
      rcases ht with rfl | rfl | rfl | rfl | rfl | rfl
      · exact nameOk_clean (table_ok _ (by decide +kernel))
      · trivial
      · exact nameOk_clean (table_ok _ (by decide +kernel))
      all_goals trivial)
    (not_inside_of (by
      intro i hi _
      exact ⟨6, by decide, hi, by
        have : ∀ i, i < 6 → opens ((srcNested.take 6).drop i) ≤ closes ((srcNested.take 6).drop i) ∧ 0 < closes ((srcNested.take 6).drop i) := by
          decide +kernel
        exact this i hi⟩))
    Sw.m_strlen (by decide) (by decide) ⟨srcNested.take 2, [], [.cls, .cls], by simp [Breaks], by decide +kernel⟩
  rw [nested_names] at h1
  cases h1
  exact absurd h2 (by decide +kernel)

/-- C113 fails for getopt: it has no macro. -/
theorem C113_getopt_refuted : genconf genconfTable srcGetopt = some [] ∧ CallAt srcGetopt [] (switchNames.getD Sw.m_getopt []) :=
  ⟨by decide +kernel, [], [.cls], by simp [Breaks], by decide +kernel⟩

/-- C113 fails for functions that are handed on: `qsort ( strcmp )` does not name strcmp. -/
theorem C113_pointer_refuted : genconf genconfTable [.name (nb [113, 115, 111, 114, 116]), .opn, .name (nb [115, 116, 114, 99, 109, 112]), .cls] =
    some [nb [113, 115, 111, 114, 116]] ∧
    genconf genconfTable [.name (nb [112]), .other [61#8], .name (nb [115, 116, 114, 99, 109, 112]), .other [59#8]] = some [] := by
  decide +kernel

/-- C113 fails for sources with `_M_` in a name: `strlen ( ) A_M_B` on one line does not name strlen. -/
theorem C113_mark_refuted : ∃ names, genconf genconfTable [.name (switchNames.getD Sw.m_strlen []), .opn, .cls,
    .name (nb [65, 95, 77, 95, 66])] = some names ∧ switchNames.getD Sw.m_strlen [] ∉ names :=
  ⟨[nb [115, 116, 114, 108, 101, 110, 95, 77, 95, 32, 40, 32, 41, 32, 65]], by decide +kernel, by decide +kernel⟩

end Minilib

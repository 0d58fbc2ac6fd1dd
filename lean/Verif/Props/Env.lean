import Verif.Model.Env
import Verif.Spec.Env
import Verif.Props.Str
/-
Properties C45 and C46: the environment.
-/

set_option autoImplicit false

namespace Minilib
open Mem Spec

/-! ### C45: getenv -/

theorem envCmp_step {m : Mem} {p q : Nat} {b1 b2 : Byte} (h1 : m p = some b1) (h2 : m q = some b2) :
    envCmp m p q = if b1 = b2 then envCmp m (p + 1) (q + 1) else .ok (b1, b2, p) := by
  rw [envCmp, load_some h1]
  simp only [Res.ok_bind]
  rw [load_some h2]
  rfl

/-- The comparison of an entry with a name: they differ at the end of their common part `c`. -/
theorem envCmp_eq {m : Mem} : ∀ {c : List Byte} {p q : Nat} {x y : Byte}, m.Holds p (c ++ [x]) → m.Holds q (c ++ [y]) → x ≠ y →
    envCmp m p q = .ok (x, y, p + c.length)
  | [], p, q, x, y, h1, h2, hne => by
    rw [envCmp_step (holds_cons.1 h1).1 (holds_cons.1 h2).1, if_neg hne]
    simp
  | b :: c, p, q, x, y, h1, h2, hne => by
    obtain ⟨h11, h12⟩ := holds_cons.1 h1
    obtain ⟨h21, h22⟩ := holds_cons.1 h2
    rw [envCmp_step h11 h21, if_pos rfl, envCmp_eq h12 h22 hne]
    simp only [List.length_cons]
    congr 3
    omega

/-- Two different strings have a common part and then different bytes (one of which may be the NUL). -/
theorem env_split_diff : ∀ (e s : List Byte), e ≠ s →
    (∃ c x y e' s', e = c ++ x :: e' ∧ s = c ++ y :: s' ∧ x ≠ y) ∨ (∃ y s', s = e ++ y :: s') ∨ (∃ x e', e = s ++ x :: e')
  | [], [], h => absurd rfl h
  | [], y :: s, _ => Or.inr (Or.inl ⟨y, s, rfl⟩)
  | x :: e, [], _ => Or.inr (Or.inr ⟨x, e, rfl⟩)
  | x :: e, y :: s, h => by
    by_cases hxy : x = y
    · subst hxy
      rcases env_split_diff e s (fun e' => h (by rw [e'])) with ⟨c, a, b, e', s', h1, h2, h3⟩ | ⟨b, s', h1⟩ | ⟨a, e', h1⟩
      · exact Or.inl ⟨x :: c, a, b, e', s', by rw [h1]; rfl, by rw [h2]; rfl, h3⟩
      · exact Or.inr (Or.inl ⟨b, s', by rw [h1]; rfl⟩)
      · exact Or.inr (Or.inr ⟨a, e', by rw [h1]; rfl⟩)
    · exact Or.inl ⟨[], x, y, e, s, rfl, rfl, hxy⟩

theorem isStr_split {m : Mem} {p : Nat} {c e : List Byte} {x : Byte} (h : m.IsStr p (c ++ x :: e)) :
    m.Holds p (c ++ [x]) ∧ x ≠ 0#8 := by
  obtain ⟨h1, h2⟩ := isStr_iff.1 h
  refine ⟨?_, h2 x (by simp)⟩
  have : c ++ x :: e ++ [0#8] = (c ++ [x]) ++ (e ++ [0#8]) := by simp
  rw [this] at h1
  exact (holds_append.1 h1).1

theorem isStr_end {m : Mem} {p : Nat} {c : List Byte} (h : m.IsStr p c) : m.Holds p (c ++ [0#8]) := (isStr_iff.1 h).1

/-- An entry which starts with `name=` is recognised … -/
theorem envCmp_hit {m : Mem} {p q : Nat} {s v : List Byte} (he : m.IsStr p (s ++ 61#8 :: v)) (hs : m.IsStr q s) :
    envCmp m p q = .ok (61#8, 0#8, p + s.length) :=
  envCmp_eq (isStr_split he).1 (isStr_end hs) (by decide)

/-- … and every other one, different from the bare name, is not. -/
theorem envCmp_miss {m : Mem} {p q : Nat} {e s : List Byte} (he : m.IsStr p e) (hs : m.IsStr q s) (hne : e ≠ s)
    (hno : ∀ v, e ≠ s ++ 61#8 :: v) : ∃ r, envCmp m p q = .ok r ∧ ¬ (r.1 = 61#8 ∧ r.2.1 = 0#8) := by
  rcases env_split_diff e s hne with ⟨c, x, y, e', s', rfl, rfl, hxy⟩ | ⟨y, s', rfl⟩ | ⟨x, e', rfl⟩
  · refine ⟨_, envCmp_eq (isStr_split he).1 (isStr_split hs).1 hxy, ?_⟩
    rintro ⟨_, h⟩
    exact (isStr_split hs).2 h
  · refine ⟨_, envCmp_eq (isStr_end he) (isStr_split hs).1 (fun h => (isStr_split hs).2 h.symm), ?_⟩
    rintro ⟨h, _⟩
    exact absurd (show (0#8 : Byte) = 61#8 from h) (by decide)
  · refine ⟨_, envCmp_eq (isStr_split he).1 (isStr_end hs) (isStr_split he).2, ?_⟩
    rintro ⟨h, _⟩
    simp only at h
    subst h
    exact hno e' rfl

/-- An array of pointers to the strings `es`, with a NULL behind them. -/
def _root_.Spec.EnvStrings (m : Mem) : List Nat → List (List Byte) → Prop
  | arr, [] => arr.head? = some 0
  | [], _ :: _ => False
  | p :: arr, e :: es => p ≠ 0 ∧ m.IsStr p e ∧ EnvStrings m arr es

/-- The entry which `getenv` has to find: the first one starting with `name=`; its number and value. -/
def _root_.Spec.firstEntry (s : List Byte) : List (List Byte) → Option (Nat × List Byte)
  | [] => none
  | e :: es => if (s ++ [61#8]).isPrefixOf e then some (0, e.drop (s.length + 1)) else (firstEntry s es).map (fun x => (x.1 + 1, x.2))

/-- C45 in full: any environment strings. -/
def C45_full : Prop := ∀ (m : Mem) (name : Nat) (s : List Byte) (arr : List Nat) (es : List (List Byte)), m.IsStr name s → EnvStrings m arr es →
  getenv m name arr = .ok (match firstEntry s es with | none => 0 | some x => arr.getD x.1 0 + (s.length + 1))

/-- C45 (partial: no entry is the bare name, without a '='): `getenv` returns the address behind `name=` in the first entry
that starts with it, and NULL if there is none. -/
theorem C45_getenv_partial {m : Mem} {name : Nat} {s : List Byte} (hs : m.IsStr name s) : ∀ {arr : List Nat} {es : List (List Byte)},
    EnvStrings m arr es → s ∉ es →
    getenv m name arr = .ok (match firstEntry s es with | none => 0 | some x => arr.getD x.1 0 + (s.length + 1))
  | arr, [], h, _ => by
    cases arr with
    | nil => cases h
    | cons p arr =>
      simp only [EnvStrings, List.head?_cons, Option.some.injEq] at h
      simp [getenv, h, firstEntry]
  | [], _ :: _, h, _ => by cases h
  | p :: arr, e :: es, h, hno => by
    obtain ⟨h1, h2, h3⟩ := h
    simp only [List.mem_cons, not_or] at hno
    rw [getenv, if_neg h1, firstEntry]
    by_cases hp : (s ++ [61#8]).isPrefixOf e
    · rw [if_pos hp]
      obtain ⟨v, hv⟩ := List.isPrefixOf_iff_prefix.1 hp
      have he : e = s ++ 61#8 :: v := by rw [← hv]; simp
      subst he
      rw [envCmp_hit h2 hs]
      simp only [Res.ok_bind]
      rw [if_pos (by simp)]
      simp only [Res.pure_eq, List.getD_cons_zero]
      rfl
    · rw [if_neg hp]
      obtain ⟨r, hr, hrn⟩ := envCmp_miss h2 hs (fun h => hno.1 h.symm) (by
        rintro v rfl
        exact hp (List.isPrefixOf_iff_prefix.2 ⟨v, by simp⟩))
      rw [hr]
      simp only [Res.ok_bind]
      rw [if_neg hrn, C45_getenv_partial hs h3 hno.2]
      cases firstEntry s es with
      | none => rfl
      | some x => simp

/-- C45 fails: the environment { "A", NULL } has an entry without '='; `getenv("A")` runs past the end of both strings. -/
theorem C45_refuted : ¬ C45_full := by
  intro h
  have h1 := h (objects [(16, [65#8, 0#8]), (32, [65#8, 0#8])]) 32 [65#8] [16, 0] [[65#8]] ⟨by decide, by decide⟩
    ⟨by decide, ⟨by decide, by decide⟩, rfl⟩
  rw [getenv, if_neg (by decide), envCmp_step (b1 := 65#8) (b2 := 65#8) (by decide) (by decide), if_pos rfl,
    envCmp_step (b1 := 0#8) (b2 := 0#8) (by decide) (by decide), if_pos rfl, envCmp, load_none (by decide)] at h1
  cases h1

/-- C45 for environments of variables `name=value` and a name without '=': the value of the variable, or NULL. -/
theorem C45_getenv_value {m : Mem} {name : Nat} {s : List Byte} (hs : m.IsStr name s) (heq : 61#8 ∉ s) : ∀ {arr : List Nat} {vs : List Var},
    EnvView m arr vs → ∃ a, getenv m name arr = .ok a ∧
      match lookupVar s vs with
      | none => a = 0
      | some v => a ≠ 0 ∧ m.IsStr a v
  | arr, [], h => by
    cases arr with
    | nil => cases h
    | cons p arr =>
      simp only [EnvView, List.head?_cons, Option.some.injEq] at h
      exact ⟨0, by simp [getenv, h], rfl⟩
  | [], _ :: _, h => by cases h
  | p :: arr, x :: vs, h => by
    obtain ⟨h1, h2, h3, h4⟩ := h
    rw [getenv, if_neg h1, lookupVar]
    by_cases hx : x.1 = s
    · rw [if_pos hx]
      rw [hx] at h2
      rw [envCmp_hit h2 hs]
      simp only [Res.ok_bind]
      rw [if_pos (by simp)]
      refine ⟨p + s.length + 1, rfl, by omega, ?_⟩
      obtain ⟨g1, g2⟩ := isStr_iff.1 h2
      rw [List.append_assoc] at g1
      have := (holds_cons.1 (holds_append.1 g1).2).2
      exact isStr_iff.2 ⟨this, fun b hb => g2 b (by simp [hb])⟩
    · rw [if_neg hx]
      obtain ⟨r, hr, hrn⟩ := envCmp_miss h2 hs
        (by intro e; rw [← e] at heq; exact heq (by simp))
        (by
          intro v e
          exact hx (by
            have h5 := congrArg (List.takeWhile (fun b : Byte => b ≠ 61#8)) e
            rw [List.takeWhile_append_of_pos (by intro b hb; simp; rintro rfl; exact h3 hb),
              List.takeWhile_append_of_pos (by intro b hb; simp; rintro rfl; exact heq hb)] at h5
            simpa using h5))
      rw [hr]
      simp only [Res.ok_bind]
      rw [if_neg hrn]
      exact C45_getenv_value hs heq h4

example : ∃ a, getenv (objects [(16, [65#8, 61#8, 49#8, 0#8]), (32, [65#8, 0#8])]) 32 [16, 0] = .ok a ∧ a = 18 := by
  refine ⟨_, C45_getenv_partial (s := [65#8]) (es := [[65#8, 61#8, 49#8]]) ⟨by decide, by decide⟩
    ⟨by decide, ⟨by decide, by decide⟩, rfl⟩ (by decide), by decide⟩

/-! ### C46: putenv, setenv, unsetenv -/

theorem putenvPos_eq {m : Mem} {string : Nat} {v : List Byte} (n : List Byte) : ∀ (k : Nat), m.IsStr (string + k) (n ++ 61#8 :: v) → 61#8 ∉ n →
    putenvPos m string k = .ok (k + n.length) := by
  induction n with
  | nil =>
    intro k h _
    rw [putenvPos, load_some (isStr_cons.1 h).1]
    simp
  | cons b n ih =>
    intro k h hn
    simp only [List.mem_cons, not_or] at hn
    obtain ⟨h1, h2, h3⟩ := isStr_cons.1 h
    rw [putenvPos, load_some h1]
    simp only [Res.ok_bind]
    rw [if_pos ⟨h2, fun e => hn.1 e.symm⟩, ih (k + 1) h3 hn.2]
    simp only [List.length_cons]
    congr 1
    omega

/-- `strncmp` over the length of a name: is it a prefix? -/
theorem strncmp_prefix {m : Mem} {p q : Nat} {e s n : List Byte} (he : m.IsStr p e) (hs : m.IsStr q s) (hn : n ≠ [])
    (hpre : n <+: s) : ∃ r, strncmp m p q (n.length : Nat) = .ok r ∧ (r = 0 ↔ n <+: e) := by
  obtain ⟨k, hk⟩ : ∃ k, n.length = k + 1 := ⟨n.length - 1, by have := List.length_pos_iff.2 hn; omega⟩
  obtain ⟨r, h1, _, h2, _⟩ := C06_strncmp (n := k) (IsStr_strN he (k + 1)) (IsStr_strN hs (k + 1))
  refine ⟨r, by rw [hk]; exact h1, ?_⟩
  rw [h2, ← hk]
  rw [← List.prefix_iff_eq_take.1 hpre]
  rw [List.prefix_iff_eq_take]
  exact eq_comm

/-- A name is a prefix of `name'=value'` if and only if it is one of `name'`. -/
theorem prefix_text {n a v : List Byte} (hn : 61#8 ∉ n) : n <+: a ++ 61#8 :: v ↔ n <+: a := by
  constructor
  · intro h
    obtain ⟨t, ht⟩ := h
    rcases List.append_eq_append_iff.1 ht with ⟨u, h1, h2⟩ | ⟨u, h1, h2⟩
    · exact ⟨u, h1.symm⟩
    · cases u with
      | nil => rw [h1]; simp
      | cons b u =>
        simp only [List.cons_append, List.cons.injEq] at h2
        rw [h1, ← h2.1] at hn
        exact absurd (by simp) hn
  · intro h
    exact h.trans (List.prefix_append _ _)

/-- No variable has a name that continues `n`. -/
def _root_.Spec.NoLonger (n : List Byte) (vs : List Var) : Prop := ∀ x ∈ vs, n <+: x.1 → x.1 = n

/-- No variable has a name that is a beginning of `n`. -/
def _root_.Spec.NoShorter (n : List Byte) (vs : List Var) : Prop := ∀ x ∈ vs, x.1 <+: n → x.1 = n

theorem putenvLoop_eq {m : Mem} {string : Nat} {n v : List Byte} (hp : string ≠ 0) (hs : m.IsStr string (n ++ 61#8 :: v)) (hn : n ≠ [])
    (heq : 61#8 ∉ n) : ∀ {arr : List Nat} {vs : List Var}, EnvView m arr vs → NoLonger n vs →
    (vs.length + 2 ≤ arr.length ∨ lookupVar n vs ≠ none) →
    ∃ arr', putenvLoop m string n.length arr = .ok arr' ∧ EnvView m arr' (setVar n v vs) ∧ arr'.length = arr.length
  | arr, [], h, _, hl => by
    rcases hl with hl | hl
    · match arr, hl, h with
      | p :: q :: r, _, h =>
        simp only [EnvView, List.head?_cons, Option.some.injEq] at h
        subst h
        exact ⟨string :: 0 :: r, by simp [putenvLoop, appendCell], ⟨hp, hs, heq, rfl⟩, rfl⟩
    · exact absurd rfl hl
  | [], _ :: _, h, _, _ => by cases h
  | p :: arr, x :: vs, h, hno, hl => by
    obtain ⟨h1, h2, h3, h4⟩ := h
    obtain ⟨r, hr, hr0⟩ := strncmp_prefix h2 hs hn (List.prefix_append _ _)
    rw [putenvLoop, if_neg h1, hr]
    simp only [Res.ok_bind]
    by_cases hx : x.1 = n
    · rw [if_pos (hr0.2 (by rw [hx]; exact List.prefix_append _ _)), setVar, if_pos hx]
      exact ⟨string :: arr, rfl, ⟨hp, hs, heq, h4⟩, rfl⟩
    · have hnp : ¬ n <+: x.1 ++ 61#8 :: x.2 := fun h5 => hx (hno x (by simp) ((prefix_text heq).1 h5))
      rw [if_neg (fun e => hnp (hr0.1 e)), setVar, if_neg hx]
      obtain ⟨arr', r1, r2, r3⟩ := putenvLoop_eq hp hs hn heq h4 (fun y hy => hno y (by simp [hy])) (by
        rcases hl with hl | hl
        · exact Or.inl (by simpa using hl)
        · exact Or.inr (by rw [lookupVar, if_neg hx] at hl; exact hl))
      exact ⟨p :: arr', by rw [r1]; rfl, ⟨h1, h2, h3, r2⟩, by simp [r3]⟩

/-- C46 for `putenv` in full. -/
def C46_putenv_full : Prop := ∀ (m : Mem) (string : Nat) (n v : List Byte) (arr : List Nat) (vs : List Var), string ≠ 0 →
  m.IsStr string (n ++ 61#8 :: v) → n ≠ [] → 61#8 ∉ n → EnvView m arr vs → vs.length + 2 ≤ arr.length →
  ∃ arr', putenv m string arr = .ok (arr', 0) ∧ EnvView m arr' (setVar n v vs)

/-- C46 (partial: no variable has a name that continues the new one): `putenv` makes the string the entry of the variable,
in its place or at the end, and changes nothing else.  A new entry at the end needs a free cell behind the NULL. -/
theorem C46_putenv_partial {m : Mem} {string : Nat} {n v : List Byte} {arr : List Nat} {vs : List Var} (hp : string ≠ 0)
    (hs : m.IsStr string (n ++ 61#8 :: v)) (hn : n ≠ []) (heq : 61#8 ∉ n) (h : EnvView m arr vs) (hno : NoLonger n vs)
    (hl : vs.length + 2 ≤ arr.length ∨ lookupVar n vs ≠ none) :
    ∃ arr', putenv m string arr = .ok (arr', 0) ∧ EnvView m arr' (setVar n v vs) ∧ arr'.length = arr.length := by
  obtain ⟨arr', r1, r2, r3⟩ := putenvLoop_eq hp hs hn heq h hno hl
  refine ⟨arr', ?_, r2, r3⟩
  unfold putenv
  rw [putenvPos_eq (v := v) n 0 hs heq]
  simp only [Res.ok_bind, Nat.zero_add]
  have hload : m (string + n.length) = some 61#8 := by
    have := (isStr_iff.1 hs).1
    rw [List.append_assoc] at this
    exact (holds_cons.1 (holds_append.1 this).2).1
  rw [load_some hload]
  simp only [Res.ok_bind]
  rw [if_neg (by
    rintro (h0 | h0)
    · exact hn (List.length_eq_zero_iff.1 h0)
    · exact absurd h0 (by decide)), r1]
  rfl

/-- C46: `putenv` of a string without '=', or with an empty name, is an error and changes nothing. -/
theorem C46_putenv_error {m : Mem} {string : Nat} {s : List Byte} (arr : List Nat) (hs : m.IsStr string s) (hbad : 61#8 ∉ s ∨ s.head? = some 61#8) :
    putenv m string arr = .ok (arr, -1) := by
  have key : ∀ (s : List Byte) (k : Nat), m.IsStr (string + k) s → 61#8 ∉ s → putenvPos m string k = .ok (k + s.length) ∧
      m (string + (k + s.length)) = some 0#8 := by
    intro s
    induction s with
    | nil =>
      intro k h _
      refine ⟨?_, isStr_nil.1 h⟩
      rw [putenvPos, load_some (isStr_nil.1 h)]
      simp
    | cons b s ih =>
      intro k h hn
      simp only [List.mem_cons, not_or] at hn
      obtain ⟨h1, h2, h3⟩ := isStr_cons.1 h
      obtain ⟨i1, i2⟩ := ih (k + 1) h3 hn.2
      have e : k + 1 + s.length = k + (s.length + 1) := by omega
      rw [e] at i1 i2
      refine ⟨?_, i2⟩
      rw [putenvPos, load_some h1]
      simp only [Res.ok_bind]
      rw [if_pos ⟨h2, fun e => hn.1 e.symm⟩, i1, List.length_cons]
  unfold putenv
  rcases hbad with hb | hb
  · obtain ⟨h1, h2⟩ := key s 0 hs hb
    rw [h1]
    simp only [Res.ok_bind]
    rw [load_some h2]
    simp
  · cases s with
    | nil => cases hb
    | cons b s =>
      simp only [List.head?_cons, Option.some.injEq] at hb
      subst hb
      have h1 : m string = some 61#8 := (isStr_cons.1 hs).1
      rw [putenvPos, Nat.add_zero, load_some h1]
      simp only [Res.ok_bind]
      rw [if_neg (by simp)]
      simp [load_some h1]

/-- C46 fails for `putenv("A=1")` with a variable AB: that one is replaced. -/
theorem C46_putenv_refuted : ¬ C46_putenv_full := by
  intro h
  have hs : (objects [(16, [65#8, 66#8, 61#8, 50#8, 0#8]), (32, [65#8, 61#8, 49#8, 0#8])]).IsStr 32 ([65#8] ++ 61#8 :: [49#8]) :=
    ⟨by decide, by decide⟩
  have he : (objects [(16, [65#8, 66#8, 61#8, 50#8, 0#8]), (32, [65#8, 61#8, 49#8, 0#8])]).IsStr 16 ([65#8, 66#8] ++ 61#8 :: [50#8]) :=
    ⟨by decide, by decide⟩
  obtain ⟨arr', h1, h2⟩ := h _ 32 [65#8] [49#8] [16, 0, 0] [([65#8, 66#8], [50#8])] (by decide) hs (by decide) (by decide)
    ⟨by decide, he, by decide, rfl⟩ (by decide)
  unfold putenv at h1
  rw [putenvPos_eq (v := [49#8]) [65#8] 0 hs (by decide)] at h1
  simp only [Res.ok_bind] at h1
  rw [load_some (b := 61#8) (by decide)] at h1
  simp only [Res.ok_bind] at h1
  rw [if_neg (by decide), putenvLoop, if_neg (by decide)] at h1
  obtain ⟨r, hr, hr0⟩ := strncmp_prefix he hs (n := [65#8]) (by decide) (by decide)
  rw [show (0 + [65#8].length : Nat) = [65#8].length from rfl, hr] at h1
  simp only [Res.ok_bind] at h1
  rw [if_pos (hr0.2 (by decide))] at h1
  simp only [Res.ok_bind, Res.pure_eq, Res.ok.injEq, Prod.mk.injEq] at h1
  rw [← h1.1] at h2
  exact absurd (h2.2.2.2).1 (by decide)

/-- C46: a new variable, when nothing is free behind the NULL: the NULL is written outside of the array (the array
made by the kernel is such a one). -/
theorem C46_putenv_array_refuted : ∃ (m : Mem) (string : Nat) (arr : List Nat), EnvView m arr [] ∧ m.IsStr string [65#8, 61#8] ∧
    putenv m string arr = .ub := by
  have hs : (objects [(32, [65#8, 61#8, 0#8])]).IsStr 32 ([65#8] ++ 61#8 :: []) := ⟨by decide, by decide⟩
  refine ⟨objects [(32, [65#8, 61#8, 0#8])], 32, [0], rfl, hs, ?_⟩
  unfold putenv
  rw [putenvPos_eq (v := []) [65#8] 0 hs (by decide)]
  simp only [Res.ok_bind]
  rw [load_some (b := 61#8) (by decide)]
  rfl

/-! ### unsetenv -/

theorem envCmp_unset {m : Mem} {p q : Nat} {x : Var} {s : List Byte} (he : m.IsStr p (x.1 ++ 61#8 :: x.2)) (hx : 61#8 ∉ x.1)
    (hs : m.IsStr q s) (heq : 61#8 ∉ s) : ∃ r, envCmp m p q = .ok r ∧ (r.1 = 61#8 ↔ x.1 <+: s) := by
  have hne : x.1 ++ 61#8 :: x.2 ≠ s := by rintro rfl; exact heq (by simp)
  by_cases hp : x.1 <+: s
  · obtain ⟨t, ht⟩ := hp
    cases t with
    | nil =>
      rw [List.append_nil] at ht
      rw [ht] at he
      exact ⟨_, envCmp_hit he hs, by simp [ht]⟩
    | cons y t =>
      subst ht
      refine ⟨_, envCmp_eq (isStr_split he).1 (isStr_split hs).1 (by rintro rfl; exact heq (by simp)), ?_⟩
      simp
  · rcases env_split_diff _ s hne with ⟨c, a, b, e', s', h1, h2, hab⟩ | ⟨y, s', h1⟩ | ⟨a, e', h1⟩
    · refine ⟨(a, b, p + c.length), ?_, ?_⟩
      · rw [h1] at he; rw [h2] at hs
        exact envCmp_eq (isStr_split he).1 (isStr_split hs).1 hab
      · constructor
        · intro ha
          simp only at ha
          subst ha
          exfalso
          apply hp
          rcases List.append_eq_append_iff.1 h1 with ⟨t, ht1, ht2⟩ | ⟨t, ht1, ht2⟩
          · cases t with
            | nil => rw [h2, ht1]; simp
            | cons z t =>
              simp only [List.cons_append, List.cons.injEq] at ht2
              rw [h2, ht1]
              exact ⟨z :: t ++ b :: s', by simp⟩
          · cases t with
            | nil => rw [h2, ht1]; simp
            | cons z t =>
              simp only [List.cons_append, List.cons.injEq] at ht2
              rw [ht1, ← ht2.1] at hx
              exact absurd (by simp) hx
        · intro h; exact absurd h hp
    · exact absurd ⟨61#8 :: x.2 ++ y :: s', by rw [h1]; simp⟩ hp
    · refine ⟨(a, 0#8, p + s.length), ?_, ?_⟩
      · rw [h1] at he
        exact envCmp_eq (isStr_split he).1 (isStr_end hs) (isStr_split he).2
      · constructor
        · intro ha
          simp only at ha
          subst ha
          exfalso
          apply hp
          rcases List.append_eq_append_iff.1 h1 with ⟨t, ht1, ht2⟩ | ⟨t, ht1, ht2⟩
          · exact ⟨t, ht1.symm⟩
          · cases t with
            | nil => rw [ht1]; simp
            | cons z t =>
              simp only [List.cons_append, List.cons.injEq] at ht2
              rw [ht1, ← ht2.1] at hx
              exact absurd (by simp) hx
        · intro h; exact absurd h hp

theorem shiftDown_eq {m : Mem} : ∀ {vs : List Var} {arr : List Nat} {p : Nat}, EnvView m arr vs →
    ∃ arr', shiftDown (p :: arr) = .ok arr' ∧ EnvView m arr' vs ∧ arr'.length = arr.length + 1
  | [], arr, p, h => by
    cases arr with
    | nil => cases h
    | cons q arr =>
      simp only [EnvView, List.head?_cons, Option.some.injEq] at h
      exact ⟨0 :: q :: arr, by rw [shiftDown, if_pos h], rfl, rfl⟩
  | x :: vs, arr, p, h => by
    cases arr with
    | nil => cases h
    | cons q arr =>
      obtain ⟨h1, h2, h3, h4⟩ := h
      obtain ⟨arr', r1, r2, r3⟩ := shiftDown_eq (p := q) h4
      exact ⟨q :: arr', by rw [shiftDown, if_neg h1, r1]; rfl, ⟨h1, h2, h3, r2⟩, by simp [r3]⟩

/-- C46 for `unsetenv` in full: the first entry of the variable is removed, nothing else. -/
def C46_unsetenv_full : Prop := ∀ (m : Mem) (name : Nat) (s : List Byte) (arr : List Nat) (vs : List Var), m.IsStr name s → 61#8 ∉ s →
  EnvView m arr vs → ∃ arr', unsetenv m name arr = .ok arr' ∧ EnvView m arr' (removeVar s vs)

/-- C46 (partial: no variable has a name that is a beginning of the given one): `unsetenv` removes the first entry of the
variable, and changes nothing else. -/
theorem C46_unsetenv_partial {m : Mem} {name : Nat} {s : List Byte} (hs : m.IsStr name s) (heq : 61#8 ∉ s) :
    ∀ {arr : List Nat} {vs : List Var}, EnvView m arr vs → NoShorter s vs →
    ∃ arr', unsetenv m name arr = .ok arr' ∧ EnvView m arr' (removeVar s vs) ∧ arr'.length = arr.length
  | arr, [], h, _ => by
    cases arr with
    | nil => cases h
    | cons q arr =>
      have h' := h
      simp only [EnvView, List.head?_cons, Option.some.injEq] at h'
      exact ⟨q :: arr, by rw [unsetenv, if_pos h'], h, rfl⟩
  | [], _ :: _, h, _ => by cases h
  | p :: arr, x :: vs, h, hno => by
    obtain ⟨h1, h2, h3, h4⟩ := h
    obtain ⟨r, hr, hr0⟩ := envCmp_unset h2 h3 hs heq
    rw [unsetenv, if_neg h1, hr]
    simp only [Res.ok_bind]
    by_cases hx : x.1 = s
    · rw [if_pos (hr0.2 (by rw [hx]; exact List.prefix_refl _)), removeVar, if_pos hx]
      obtain ⟨arr', r1, r2, r3⟩ := shiftDown_eq (p := p) h4
      exact ⟨arr', r1, r2, by simp [r3]⟩
    · rw [if_neg (fun e => hx (hno x (by simp) (hr0.1 e))), removeVar, if_neg hx]
      obtain ⟨arr', r1, r2, r3⟩ := C46_unsetenv_partial hs heq h4 (fun y hy => hno y (by simp [hy]))
      exact ⟨p :: arr', by rw [r1]; rfl, ⟨h1, h2, h3, r2⟩, by simp [r3]⟩

/-- C46 fails for `unsetenv("AB")` with a variable A: that one is removed. -/
theorem C46_unsetenv_refuted : ¬ C46_unsetenv_full := by
  intro h
  have hs : (objects [(16, [65#8, 61#8, 50#8, 0#8]), (32, [65#8, 66#8, 0#8])]).IsStr 32 [65#8, 66#8] := ⟨by decide, by decide⟩
  have he : (objects [(16, [65#8, 61#8, 50#8, 0#8]), (32, [65#8, 66#8, 0#8])]).IsStr 16 ([65#8] ++ 61#8 :: [50#8]) := ⟨by decide, by decide⟩
  obtain ⟨arr', h1, h2⟩ := h _ 32 [65#8, 66#8] [16, 0] [([65#8], [50#8])] hs (by decide) ⟨by decide, he, by decide, rfl⟩
  obtain ⟨r, hr, hr0⟩ := envCmp_unset (x := ([65#8], [50#8])) he (by decide) hs (by decide)
  rw [unsetenv, if_neg (by decide), hr] at h1
  simp only [Res.ok_bind] at h1
  rw [if_pos (hr0.2 (by decide)), shiftDown, if_pos rfl] at h1
  simp only [Res.ok.injEq] at h1
  rw [← h1] at h2
  exact absurd h2.1 (by decide)

/-! ### setenv -/

theorem disj_lin {p n q k : Nat} (h : Disjoint p n q k) (hn : 0 < n) (hk : 0 < k) : p + n ≤ q ∨ q + k ≤ p := by
  have := h (max p q)
  omega

/-- The text `name=value` at `p`. -/
theorem setenvText_eq {m : Mem} {name value p : Nat} {n v : List Byte} (hn : m.IsStr name n) (hv : m.IsStr value v)
    (hm : m.Mapped p (n.length + v.length + 2)) (d1 : Disjoint p (n.length + v.length + 2) name (n.length + 1))
    (d2 : Disjoint p (n.length + v.length + 2) value (v.length + 1)) :
    setenvText m name value p = .ok (m.write p (n ++ 61#8 :: v ++ [0#8])) := by
  unfold setenvText
  rw [C02_stpcpy hn (hm.mono (by omega)) (fun a ha => d1 a (by omega))]
  simp only [Res.ok_bind]
  have h0 : (m.write p (n ++ [0#8])) (p + n.length) = some 0#8 := by
    have := write_holds m p (n ++ [0#8])
    exact (holds_cons.1 (holds_append.1 this).2).1
  rw [store_some h0]
  simp only [Res.ok_bind]
  have h1 : (m.write p (n ++ [0#8])).upd (p + n.length) 61#8 = m.write p (n ++ [61#8]) := by
    rw [← write_singleton, write_append, write_append]
    simp only [write_singleton]
    funext a
    simp only [upd]
    split <;> rfl
  rw [h1]
  have hv' : (m.write p (n ++ [61#8])).IsStr value v := hv.write (by
    have := disj_lin d2 (by omega) (by omega)
    simp only [List.length_append, List.length_cons, List.length_nil]
    omega)
  rw [C02_strcpy hv' (Mapped.write (fun i hi => by
      obtain ⟨x, hx⟩ := hm (n.length + 1 + i) (by omega)
      exact ⟨x, by rw [← hx]; congr 1; omega⟩) _ _) (fun a ha => d2 a (by omega))]
  simp only [Res.ok_bind, Res.pure_eq]
  congr 1
  have : p + n.length + 1 = p + (n ++ [61#8]).length := by simp; omega
  rw [this, ← write_append]
  simp

/-- Every entry of the array is apart from `[p, p+k)`. -/
def _root_.Spec.Apart (m : Mem) (arr : List Nat) (p k : Nat) : Prop := ∀ q ∈ arr, ∀ e, m.IsStr q e → Disjoint p k q (e.length + 1)

theorem view_write {m : Mem} {p : Nat} {l : List Byte} (hl : 0 < l.length) : ∀ {arr : List Nat} {vs : List Var}, EnvView m arr vs →
    Apart m arr p l.length → EnvView (m.write p l) arr vs
  | arr, [], h, _ => by cases arr <;> exact h
  | [], _ :: _, h, _ => by cases h
  | q :: arr, x :: vs, h, ha => by
    obtain ⟨h1, h2, h3, h4⟩ := h
    have := disj_lin (ha q (by simp) _ h2) hl (by omega)
    exact ⟨h1, h2.write (by omega), h3, view_write hl h4 (fun r hr => ha r (by simp [hr]))⟩

theorem setenvLoop_eq {m : Mem} {name value p : Nat} {n v : List Byte} (hn : m.IsStr name n) (hv : m.IsStr value v)
    (hm : m.Mapped p (n.length + v.length + 2)) (d1 : Disjoint p (n.length + v.length + 2) name (n.length + 1))
    (d2 : Disjoint p (n.length + v.length + 2) value (v.length + 1)) (hp : p ≠ 0) (hne : n ≠ []) (heq : 61#8 ∉ n) (ow : Bool) :
    ∀ {arr : List Nat} {vs : List Var}, EnvView m arr vs → NoLonger n vs → Apart m arr p (n.length + v.length + 2) →
    (vs.length + 2 ≤ arr.length ∨ lookupVar n vs ≠ none) →
    ∃ m' arr', setenvLoop m name value n.length ow p arr = .ok (m', arr', 0) ∧ arr'.length = arr.length ∧
      (if ow = false ∧ lookupVar n vs ≠ none then m' = m ∧ arr' = arr
       else m' = m.write p (n ++ 61#8 :: v ++ [0#8]) ∧ EnvView m' arr' (setVar n v vs))
  | arr, [], h, _, ha, hl => by
    rcases hl with hl | hl
    · match arr, hl, h with
      | e :: q :: r, _, h =>
        simp only [EnvView, List.head?_cons, Option.some.injEq] at h
        subst h
        refine ⟨m.write p (n ++ 61#8 :: v ++ [0#8]), p :: 0 :: r, ?_, rfl, ?_⟩
        · rw [setenvLoop, if_pos rfl, if_neg hp, setenvText_eq hn hv hm d1 d2]
          simp [appendCell]
        · rw [if_neg (by simp [lookupVar])]
          refine ⟨rfl, hp, isStr_iff.2 ⟨write_holds _ _ _, ?_⟩, heq, rfl⟩
          intro b hb
          simp only [List.mem_append, List.mem_cons] at hb
          rcases hb with hb | rfl | hb
          · exact (isStr_iff.1 hn).2 b hb
          · decide
          · exact (isStr_iff.1 hv).2 b hb
    · exact absurd rfl hl
  | [], _ :: _, h, _, _, _ => by cases h
  | e :: arr, x :: vs, h, hno, ha, hl => by
    obtain ⟨h1, h2, h3, h4⟩ := h
    obtain ⟨r, hr, hr0⟩ := strncmp_prefix h2 hn hne (List.prefix_refl _)
    rw [setenvLoop, if_neg h1, hr]
    simp only [Res.ok_bind]
    by_cases hx : x.1 = n
    · rw [if_pos (hr0.2 (by rw [hx]; exact List.prefix_append _ _)), lookupVar, if_pos hx]
      cases ow with
      | false =>
        rw [if_pos rfl]
        exact ⟨m, e :: arr, rfl, rfl, by simp⟩
      | true =>
        rw [if_neg (by decide), if_neg hp, setenvText_eq hn hv hm d1 d2, setVar, if_pos hx]
        refine ⟨m.write p (n ++ 61#8 :: v ++ [0#8]), p :: arr, rfl, rfl, ?_⟩
        rw [if_neg (by simp)]
        refine ⟨rfl, hp, isStr_iff.2 ⟨write_holds _ _ _, ?_⟩, heq, ?_⟩
        · intro b hb
          simp only [List.mem_append, List.mem_cons] at hb
          rcases hb with hb | rfl | hb
          · exact (isStr_iff.1 hn).2 b hb
          · decide
          · exact (isStr_iff.1 hv).2 b hb
        · have hlen : (n ++ 61#8 :: v ++ [0#8]).length = n.length + v.length + 2 := by simp; omega
          exact view_write (by omega) h4 (by rw [hlen]; exact fun q hq => ha q (by simp [hq]))
    · have hnp : ¬ n <+: x.1 ++ 61#8 :: x.2 := fun h5 => hx (hno x (by simp) ((prefix_text heq).1 h5))
      rw [if_neg (fun e => hnp (hr0.1 e)), setVar, if_neg hx, lookupVar, if_neg hx]
      obtain ⟨m', arr', r1, r2, r3⟩ := setenvLoop_eq hn hv hm d1 d2 hp hne heq ow h4 (fun y hy => hno y (by simp [hy]))
        (fun q hq => ha q (by simp [hq])) (by
        rcases hl with hl | hl
        · exact Or.inl (by simpa using hl)
        · exact Or.inr (by rw [lookupVar, if_neg hx] at hl; exact hl))
      refine ⟨m', e :: arr', by rw [r1]; rfl, by simp [r2], ?_⟩
      by_cases hc : ow = false ∧ lookupVar n vs ≠ none
      · rw [if_pos hc] at r3 ⊢
        exact ⟨r3.1, by rw [r3.2]⟩
      · rw [if_neg hc] at r3 ⊢
        refine ⟨r3.1, h1, ?_, h3, r3.2⟩
        have := disj_lin (ha e (by simp) _ h2) (by omega) (by omega)
        rw [r3.1]
        have hlen : (n ++ 61#8 :: v ++ [0#8]).length = n.length + v.length + 2 := by simp; omega
        exact h2.write (by rw [hlen]; omega)

/-- C46 for `setenv`, in full: `malloc` was asked for `len+1+strlen(value)` bytes at `p` and gave as many. -/
def C46_setenv_full : Prop := ∀ (m : Mem) (name value p : Nat) (n v : List Byte) (arr : List Nat) (vs : List Var), m.IsStr name n → m.IsStr value v →
  name ≠ 0 → p ≠ 0 → n ≠ [] → 61#8 ∉ n → n.length < 2147483648 → m.Mapped p (n.length + 1 + v.length) →
  Disjoint p (n.length + 1 + v.length) name (n.length + 1) → Disjoint p (n.length + 1 + v.length) value (v.length + 1) →
  EnvView m arr vs → NoLonger n vs → vs.length + 2 ≤ arr.length →
  ∃ m' arr', setenv m name value true p arr = .ok (m', arr', 0) ∧ EnvView m' arr' (setVar n v vs)

/-- C46 (partial: one byte more than asked for is usable at the address `malloc` returned, and no variable has a name that
continues the given one): `setenv` sets the variable, in its place or at the end, and no other; without `overwrite` an
existing variable keeps its value.  A new entry at the end needs a free cell behind the NULL. -/
theorem C46_setenv_partial {m : Mem} {name value p : Nat} {n v : List Byte} {arr : List Nat} {vs : List Var} (hn : m.IsStr name n)
    (hv : m.IsStr value v) (hname : name ≠ 0) (hlen : n.length < 2147483648)
    (hm : m.Mapped p (n.length + v.length + 2)) (d1 : Disjoint p (n.length + v.length + 2) name (n.length + 1))
    (d2 : Disjoint p (n.length + v.length + 2) value (v.length + 1)) (hp : p ≠ 0) (hne : n ≠ []) (heq : 61#8 ∉ n) (ow : Bool)
    (h : EnvView m arr vs) (hno : NoLonger n vs) (ha : Apart m arr p (n.length + v.length + 2))
    (hl : vs.length + 2 ≤ arr.length ∨ lookupVar n vs ≠ none) :
    ∃ m' arr', setenv m name value ow p arr = .ok (m', arr', 0) ∧ arr'.length = arr.length ∧
      (if ow = false ∧ lookupVar n vs ≠ none then m' = m ∧ arr' = arr
       else m' = m.write p (n ++ 61#8 :: v ++ [0#8]) ∧ EnvView m' arr' (setVar n v vs)) := by
  unfold setenv
  rw [C01_strlen hn hname hlen]
  exact setenvLoop_eq hn hv hm d1 d2 hp hne heq ow h hno ha hl

/-- C46 fails for `setenv` whenever exactly the bytes asked for are usable: the NUL does not fit. -/
theorem C46_setenv_refuted : ¬ C46_setenv_full := by
  intro h
  let m := objects [(16, [65#8, 0#8]), (32, [49#8, 0#8]), (48, [7#8, 7#8, 7#8])]
  have hm : m.Mapped 48 3 := by
    intro i hi
    exact Option.isSome_iff_exists.1 ((by decide : ∀ i < 3, (m (48 + i)).isSome) i hi)
  have hn : m.IsStr 16 [65#8] := ⟨by decide, by decide⟩
  have hv : m.IsStr 32 [49#8] := ⟨by decide, by decide⟩
  obtain ⟨m', arr', h1, _⟩ := h m 16 32 48 [65#8] [49#8] [0, 0] [] hn hv (by decide) (by decide) (by decide) (by decide) (by decide) hm
    (by intro a; simp only [List.length_cons, List.length_nil]; omega) (by intro a; simp only [List.length_cons, List.length_nil]; omega)
    rfl (by intro x hx; cases hx) (by decide)
  unfold setenv at h1
  rw [C01_strlen hn (by decide) (by decide)] at h1
  simp only [Res.ok_bind] at h1
  rw [setenvLoop, if_pos rfl, if_neg (by decide)] at h1
  unfold setenvText at h1
  rw [C02_stpcpy hn (hm.mono (by decide)) (by intro a; simp only [List.length_cons, List.length_nil]; omega)] at h1
  simp only [Res.ok_bind] at h1
  rw [store_some (b := 61#8) (c := 0#8) (by decide)] at h1
  simp only [Res.ok_bind] at h1
  unfold strcpy at h1
  rw [stpcpyLoop, load_some (b := 49#8) (by decide)] at h1
  simp only [Res.ok_bind] at h1
  rw [if_pos (by decide), store_some (b := 49#8) (c := 7#8) (by decide)] at h1
  simp only [Res.ok_bind] at h1
  rw [stpcpyLoop, load_some (b := 0#8) (by decide)] at h1
  simp only [Res.ok_bind] at h1
  rw [if_neg (by decide), store_none (by decide)] at h1
  cases h1

/-- C46: when `malloc` fails, an environment should stay as it is. -/
def C46_nomem_full : Prop := ∀ (m : Mem) (name value : Nat) (n : List Byte) (arr : List Nat) (vs : List Var), m.IsStr name n →
  name ≠ 0 → n ≠ [] → 61#8 ∉ n → n.length < 2147483648 → EnvView m arr vs → NoLonger n vs →
  ∃ m' arr', setenv m name value true 0 arr = .ok (m', arr', -1) ∧ EnvView m' arr' vs

/-- It does not: the variable and all behind it are gone. -/
theorem C46_nomem_refuted : ¬ C46_nomem_full := by
  intro h
  have hn : (objects [(16, [65#8, 0#8]), (32, [65#8, 61#8, 0#8])]).IsStr 16 [65#8] := ⟨by decide, by decide⟩
  have he : (objects [(16, [65#8, 0#8]), (32, [65#8, 61#8, 0#8])]).IsStr 32 ([65#8] ++ 61#8 :: []) := ⟨by decide, by decide⟩
  obtain ⟨m', arr', h1, h2⟩ := h _ 16 16 [65#8] [32, 0] [([65#8], [])] hn (by decide) (by decide) (by decide) (by decide)
    ⟨by decide, he, by decide, rfl⟩ (by intro x hx _; simp at hx; rw [hx])
  unfold setenv at h1
  rw [C01_strlen hn (by decide) (by decide)] at h1
  simp only [Res.ok_bind] at h1
  obtain ⟨r, hr, hr0⟩ := strncmp_prefix he hn (n := [65#8]) (by decide) (by decide)
  rw [setenvLoop, if_neg (by decide), hr] at h1
  simp only [Res.ok_bind] at h1
  rw [if_pos (hr0.2 (by decide)), if_neg (by decide)] at h1
  simp only [if_true, Res.pure_eq, Res.ok.injEq, Prod.mk.injEq] at h1
  rw [← h1.2.1] at h2
  exact h2.1 rfl

/-! ### Histories -/

theorem lookup_set (n v k : List Byte) : ∀ vs : List Var, lookupVar k (setVar n v vs) = if k = n then some v else lookupVar k vs
  | [] => by simp only [setVar, lookupVar]; by_cases h : n = k
             · simp [h]
             · rw [if_neg h, if_neg (fun e : k = n => h e.symm)]
  | x :: vs => by
    simp only [setVar]
    by_cases hx : x.1 = n
    · rw [if_pos hx]
      simp only [lookupVar]
      by_cases h : n = k
      · rw [if_pos h, if_pos h.symm]
      · rw [if_neg h, if_neg (fun e : k = n => h e.symm), if_neg (by rw [hx]; exact h)]
    · rw [if_neg hx]
      simp only [lookupVar, lookup_set n v k vs]
      by_cases h : x.1 = k
      · rw [if_pos h, if_pos h, if_neg (by rw [← h]; exact hx)]
      · rw [if_neg h, if_neg h]

/-- The names of a list of variables are pairwise different. -/
def _root_.Spec.Distinct (vs : List Var) : Prop := (vs.map (fun x => x.1)).Nodup

theorem lookup_none {n : List Byte} : ∀ {vs : List Var}, n ∉ vs.map (fun x => x.1) → lookupVar n vs = none
  | [], _ => rfl
  | x :: vs, h => by
    simp only [List.map_cons, List.mem_cons, not_or] at h
    rw [lookupVar, if_neg (fun e => h.1 e.symm), lookup_none h.2]

theorem lookup_remove (n k : List Byte) : ∀ {vs : List Var}, Distinct vs → lookupVar k (removeVar n vs) = if k = n then none else lookupVar k vs
  | [], _ => by simp [removeVar, lookupVar]
  | x :: vs, hd => by
    obtain ⟨h1, h2⟩ := List.nodup_cons.1 hd
    simp only [removeVar]
    by_cases hx : x.1 = n
    · rw [if_pos hx]
      by_cases h : k = n
      · rw [if_pos h, h, ← hx]
        exact lookup_none h1
      · rw [if_neg h, lookupVar, if_neg (fun e => h (by rw [← e, hx]))]
    · rw [if_neg hx]
      simp only [lookupVar, lookup_remove n k h2]
      by_cases h : x.1 = k
      · rw [if_pos h, if_pos h, if_neg (by rw [← h]; exact hx)]
      · rw [if_neg h, if_neg h]

theorem set_names (n v : List Byte) : ∀ vs : List Var, ∀ k, k ∈ (setVar n v vs).map (fun x => x.1) → k = n ∨ k ∈ vs.map (fun x => x.1)
  | [], k, h => by simp [setVar] at h; exact Or.inl h
  | x :: vs, k, h => by
    simp only [setVar] at h
    by_cases hx : x.1 = n
    · rw [if_pos hx] at h
      simp only [List.map_cons, List.mem_cons] at h ⊢
      rcases h with h | h
      · exact Or.inl h
      · exact Or.inr (Or.inr h)
    · rw [if_neg hx] at h
      simp only [List.map_cons, List.mem_cons] at h ⊢
      rcases h with h | h
      · exact Or.inr (Or.inl h)
      · rcases set_names n v vs k h with h | h
        · exact Or.inl h
        · exact Or.inr (Or.inr h)

theorem set_distinct (n v : List Byte) : ∀ {vs : List Var}, Distinct vs → Distinct (setVar n v vs)
  | [], _ => by simp [Distinct, setVar]
  | x :: vs, hd => by
    obtain ⟨h1, h2⟩ := List.nodup_cons.1 hd
    simp only [setVar]
    by_cases hx : x.1 = n
    · rw [if_pos hx]
      exact List.nodup_cons.2 ⟨by rw [← hx]; exact h1, h2⟩
    · rw [if_neg hx]
      refine List.nodup_cons.2 ⟨?_, set_distinct n v h2⟩
      intro h
      rcases set_names n v vs x.1 h with h | h
      · exact hx h
      · exact h1 h

theorem remove_sublist (n : List Byte) : ∀ vs : List Var, (removeVar n vs).Sublist vs
  | [] => List.Sublist.refl _
  | x :: vs => by
    simp only [removeVar]
    split
    · exact List.sublist_cons_self _ _
    · exact (remove_sublist n vs).cons_cons _

/-- What the calls of a program want the variables to be: a map, and how each call changes it. -/
inductive _root_.Spec.EnvHist (m0 : Mem) (arr0 : List Nat) (vs0 : List Var) : Mem → List Nat → List Var → (List Byte → Option (List Byte)) → Prop
  | start : EnvHist m0 arr0 vs0 m0 arr0 vs0 (fun k => lookupVar k vs0)
  | put {m arr vs f arr' r p n v} : EnvHist m0 arr0 vs0 m arr vs f → p ≠ 0 → m.IsStr p (n ++ 61#8 :: v) → n ≠ [] → 61#8 ∉ n →
      NoLonger n vs → vs.length + 2 ≤ arr.length → putenv m p arr = .ok (arr', r) →
      EnvHist m0 arr0 vs0 m arr' (setVar n v vs) (fun k => if k = n then some v else f k)
  | set {m arr vs f m' arr' r name value p n v} : EnvHist m0 arr0 vs0 m arr vs f → m.IsStr name n → m.IsStr value v → name ≠ 0 →
      n.length < 2147483648 → m.Mapped p (n.length + v.length + 2) → Disjoint p (n.length + v.length + 2) name (n.length + 1) →
      Disjoint p (n.length + v.length + 2) value (v.length + 1) → p ≠ 0 → n ≠ [] → 61#8 ∉ n → NoLonger n vs →
      Apart m arr p (n.length + v.length + 2) → vs.length + 2 ≤ arr.length → setenv m name value true p arr = .ok (m', arr', r) →
      EnvHist m0 arr0 vs0 m' arr' (setVar n v vs) (fun k => if k = n then some v else f k)
  | unset {m arr vs f arr' q n} : EnvHist m0 arr0 vs0 m arr vs f → m.IsStr q n → 61#8 ∉ n → NoShorter n vs →
      unsetenv m q arr = .ok arr' → EnvHist m0 arr0 vs0 m arr' (removeVar n vs) (fun k => if k = n then none else f k)

theorem env_history {m0 : Mem} {arr0 : List Nat} {vs0 : List Var} (h0 : EnvView m0 arr0 vs0) (hd0 : Distinct vs0)
    {m : Mem} {arr : List Nat} {vs : List Var} {f : List Byte → Option (List Byte)} (h : EnvHist m0 arr0 vs0 m arr vs f) :
    EnvView m arr vs ∧ Distinct vs ∧ ∀ k, lookupVar k vs = f k := by
  induction h with
  | start => exact ⟨h0, hd0, fun _ => rfl⟩
  | @put m arr vs f arr' r p n v _ hp hs hn heq hno hl he ih =>
    obtain ⟨i1, i2, i3⟩ := ih
    obtain ⟨arr2, r1, r2, _⟩ := C46_putenv_partial hp hs hn heq i1 hno (Or.inl hl)
    rw [r1] at he
    simp only [Res.ok.injEq, Prod.mk.injEq] at he
    rw [← he.1]
    exact ⟨r2, set_distinct _ _ i2, fun k => by rw [lookup_set, i3]⟩
  | @set m arr vs f m' arr' r name value p n v _ hn hv hname hlen hm d1 d2 hp hne heq hno ha hl he ih =>
    obtain ⟨i1, i2, i3⟩ := ih
    obtain ⟨m2, arr2, r1, _, r2⟩ := C46_setenv_partial hn hv hname hlen hm d1 d2 hp hne heq true i1 hno ha (Or.inl hl)
    rw [if_neg (by simp)] at r2
    rw [r1] at he
    simp only [Res.ok.injEq, Prod.mk.injEq] at he
    rw [← he.1, ← he.2.1]
    exact ⟨r2.2, set_distinct _ _ i2, fun k => by rw [lookup_set, i3]⟩
  | @unset m arr vs f arr' q n _ hs heq hno he ih =>
    obtain ⟨i1, i2, i3⟩ := ih
    obtain ⟨arr2, r1, r2, _⟩ := C46_unsetenv_partial hs heq i1 hno
    rw [r1] at he
    simp only [Res.ok.injEq] at he
    rw [← he]
    exact ⟨r2, i2.sublist ((remove_sublist n vs).map _), fun k => by rw [lookup_remove _ _ i2, i3]⟩

/-- C46 (partial: see `EnvHist` for the conditions on the calls; no name may be a beginning of another one): after any
sequence of calls of `putenv`, `setenv` and `unsetenv`, `getenv` of every name gives the value set last, NULL if it was
removed last, and the initial value if it was never touched. -/
theorem C46_history_partial {m0 : Mem} {arr0 : List Nat} {vs0 : List Var} (h0 : EnvView m0 arr0 vs0) (hd0 : Distinct vs0)
    {m : Mem} {arr : List Nat} {vs : List Var} {f : List Byte → Option (List Byte)} (h : EnvHist m0 arr0 vs0 m arr vs f)
    {name : Nat} {s : List Byte} (hs : m.IsStr name s) (heq : 61#8 ∉ s) :
    ∃ a, getenv m name arr = .ok a ∧
      match f s with
      | none => a = 0
      | some v => a ≠ 0 ∧ m.IsStr a v := by
  obtain ⟨h1, _, h3⟩ := env_history h0 hd0 h
  rw [← h3 s]
  exact C45_getenv_value hs heq h1

/-- An empty environment with two free cells, `putenv("A=1")`, then `getenv("A")`. -/
example : ∃ arr a, putenv (objects [(16, [65#8, 61#8, 49#8, 0#8]), (32, [65#8, 0#8])]) 16 [0, 0, 0] = .ok (arr, 0) ∧
    getenv (objects [(16, [65#8, 61#8, 49#8, 0#8]), (32, [65#8, 0#8])]) 32 arr = .ok a ∧ a ≠ 0 ∧
    (objects [(16, [65#8, 61#8, 49#8, 0#8]), (32, [65#8, 0#8])]).IsStr a [49#8] := by
  have hs : (objects [(16, [65#8, 61#8, 49#8, 0#8]), (32, [65#8, 0#8])]).IsStr 16 ([65#8] ++ 61#8 :: [49#8]) := ⟨by decide, by decide⟩
  obtain ⟨arr, r1, _, _⟩ := C46_putenv_partial (arr := [0, 0, 0]) (vs := []) (by decide) hs (by decide) (by decide) rfl
    (by intro x hx; cases hx) (Or.inl (by decide))
  have hh := EnvHist.put (m0 := objects [(16, [65#8, 61#8, 49#8, 0#8]), (32, [65#8, 0#8])]) (arr0 := [0, 0, 0]) (vs0 := []) .start
    (by decide) hs (by decide) (by decide) (by intro x hx; cases hx) (by decide) r1
  obtain ⟨a, r2, r3⟩ := C46_history_partial (s := [65#8]) (show EnvView _ [0, 0, 0] [] from rfl) (by simp [Distinct]) hh (name := 32) ⟨by decide, by decide⟩ (by decide)
  exact ⟨arr, a, r1, r2, r3⟩

/-- C46: `putenv("A")` is refused. With `A=1` and `B=2`, `unsetenv("B")` leaves the first. -/
example : putenv (objects [(32, [65#8, 0#8])]) 32 [0, 0, 0] = .ok ([0, 0, 0], -1) ∧
    ∃ arr', unsetenv (objects [(16, [65#8, 61#8, 49#8, 0#8]), (24, [66#8, 61#8, 50#8, 0#8]), (32, [66#8, 0#8])]) 32 [16, 24, 0]
        = .ok arr' ∧
      EnvView (objects [(16, [65#8, 61#8, 49#8, 0#8]), (24, [66#8, 61#8, 50#8, 0#8]), (32, [66#8, 0#8])]) arr' [([65#8], [49#8])] := by
  refine ⟨C46_putenv_error (s := [65#8]) [0, 0, 0] ⟨by decide, by decide⟩ (Or.inl (by decide)), ?_⟩
  obtain ⟨arr', h1, h2, -⟩ := C46_unsetenv_partial
    (m := objects [(16, [65#8, 61#8, 49#8, 0#8]), (24, [66#8, 61#8, 50#8, 0#8]), (32, [66#8, 0#8])]) (name := 32) (s := [66#8])
    ⟨by decide, by decide⟩ (by decide) (arr := [16, 24, 0]) (vs := [([65#8], [49#8]), ([66#8], [50#8])])
    ⟨by decide, ⟨by decide, by decide⟩, by decide, by decide, ⟨by decide, by decide⟩, by decide, rfl⟩
    (by intro x hx; simp only [List.mem_cons, List.not_mem_nil, or_false] at hx; rcases hx with rfl | rfl <;> decide)
  exact ⟨arr', h1, h2⟩

/-- C46: `setenv("B", "2", 1)` in an environment with `A=1`. -/
example : ∃ m' arr', setenv (objects [(16, [65#8, 61#8, 49#8, 0#8]), (32, [66#8, 0#8]), (34, [50#8, 0#8]), (40, [1#8, 1#8, 1#8, 1#8])]) 32 34
      true 40 [16, 0, 0] = .ok (m', arr', 0) ∧ EnvView m' arr' [([65#8], [49#8]), ([66#8], [50#8])] := by
  obtain ⟨m', arr', h1, -, h2⟩ := C46_setenv_partial
    (m := objects [(16, [65#8, 61#8, 49#8, 0#8]), (32, [66#8, 0#8]), (34, [50#8, 0#8]), (40, [1#8, 1#8, 1#8, 1#8])])
    (name := 32) (value := 34) (p := 40) (n := [66#8]) (v := [50#8]) (arr := [16, 0, 0]) (vs := [([65#8], [49#8])])
    ⟨by decide, by decide⟩ ⟨by decide, by decide⟩ (by decide) (by decide) (by decide +kernel)
    (by intro a; simp only [List.length_cons, List.length_nil]; omega) (by intro a; simp only [List.length_cons, List.length_nil]; omega)
    (by decide) (by decide) (by decide) true ⟨by decide, ⟨by decide, by decide⟩, by decide, rfl⟩
    (by intro x hx; simp only [List.mem_cons, List.not_mem_nil, or_false] at hx; subst hx; decide)
    (by
      intro q hq e he
      simp only [List.mem_cons, List.not_mem_nil, or_false] at hq
      have h0 : ¬ (objects [(16, [65#8, 61#8, 49#8, 0#8]), (32, [66#8, 0#8]), (34, [50#8, 0#8]),
          (40, [1#8, 1#8, 1#8, 1#8])]).IsStr 0 e := by
        intro h
        cases e with
        | nil => exact absurd h.2.1 (by decide)
        | cons b e => exact absurd (h.1 0 (Nat.zero_lt_succ _)) (by simp [objects])
      rcases hq with rfl | rfl | rfl
      · rw [IsStr.unique he (t := [65#8, 61#8, 49#8]) ⟨by decide, by decide⟩]
        intro a; simp only [List.length_cons, List.length_nil]; omega
      · exact absurd he h0
      · exact absurd he h0)
    (Or.inl (by decide))
  refine ⟨m', arr', h1, ?_⟩
  rw [if_neg (by decide)] at h2
  exact h2.2

end Minilib

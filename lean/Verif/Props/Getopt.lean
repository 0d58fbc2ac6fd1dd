import Verif.Lemmas.Getopt
/-
C56: getopt.
-/

set_option autoImplicit false

namespace Minilib
open Mem

/-- `n` calls of getopt; every answer with the `optarg` of that moment. -/
def getoptRun (m : Mem) (dd : Nat) (argv : List Nat) (optstring : Nat) : Nat → Getopt → Res (Getopt × List (Int × Nat))
  | 0, s => .ok (s, [])
  | n + 1, s => do
    let r ← getopt m dd argv optstring s
    let q ← getoptRun m dd argv optstring n r.1
    pure (q.1, (r.2, r.1.optarg) :: q.2)

/-- The answer reports the option, and `optarg` is its argument. -/
def OptAns (m : Mem) (r : Int × Nat) (e : Byte × Option (List Byte)) : Prop :=
  r.1 = e.1.toInt ∧ ∀ w, e.2 = some w → m.IsStr r.2 w

/-- The last answer. -/
def _root_.Spec.lastAnswer (quiet : Bool) : Spec.OptEnd → Int
  | .done _ => -1
  | .unknown _ => 63
  | .missing _ => if quiet then 58 else 63

/-- What holds after the last answer: the index of the first operand, or the offending character. -/
def OptFinal (argc : Nat) (s : Getopt) : Spec.OptEnd → Prop
  | .done left => s.optind + left = argc
  | .unknown c => s.optopt = c.toInt
  | .missing c => s.optopt = c.toInt

theorem getopt_flag {m : Mem} {dd : Nat} {argv : List Nat} {optstring : Nat} {quiet : Bool} {opts : Spec.Opts} {s : Getopt} {c : Byte}
    {cs : List Byte} {rest : List (List Byte)} (hd : m.IsStr dd [45#8, 45#8]) (ho : m.IsStr optstring (optString quiet opts))
    (ho0 : optstring ≠ 0) (hok : Spec.OptsOk opts) (h : OptRep m argv s (c :: cs) rest) (hc : c ≠ 58#8)
    (hk : Spec.optKind opts c = some false) :
    ∃ s', getopt m dd argv optstring s = .ok (s', c.toInt) ∧ OptRep m argv s' cs rest := by
  obtain ⟨p, e, hp, hm, hc0, hcs⟩ := getopt_at (optstring := optstring) hd h
  rw [e]
  unfold getoptAt
  rw [load_some hm, Res.ok_bind]
  rcases strchr_opts ho ho0 hok hc hc0 with ⟨h1, -⟩ | ⟨q, b, k, h1, h2, h3, h4, h5⟩
  · rw [h1] at hk; cases hk
  · rw [h1] at hk; cases hk
    have hk58 : k ≠ 58#8 := fun h => by simpa using h5.1 h
    rw [h2, Res.ok_bind, if_neg h3, load_some h4, Res.ok_bind, if_neg hk58]
    unfold getoptFlag
    dsimp only
    obtain ⟨g0, p', w, d, g1, g2, g3, g4, g5, g6, g7⟩ := h
    cases cs with
    | nil =>
      rw [load_some (isStr_nil.1 hcs), Res.ok_bind, if_pos rfl]
      exact ⟨_, rfl, by simp, rfl, g7⟩
    | cons x cs =>
      obtain ⟨i1, i2, i3⟩ := isStr_cons.1 hcs
      rw [load_some i1, Res.ok_bind, if_neg i2]
      exact ⟨_, rfl, g0, p', w, d, g1, g2, g3, g4, by simp, (isStr_drop_cons g3 g6).2.2.2, g7⟩

theorem getopt_arg {m : Mem} {dd : Nat} {argv : List Nat} {optstring : Nat} {quiet : Bool} {opts : Spec.Opts} {s : Getopt} {c : Byte}
    {cs : List Byte} {rest : List (List Byte)} (hd : m.IsStr dd [45#8, 45#8]) (ho : m.IsStr optstring (optString quiet opts))
    (ho0 : optstring ≠ 0) (hok : Spec.OptsOk opts) (h : OptRep m argv s (c :: cs) rest) (hc : c ≠ 58#8)
    (hk : Spec.optKind opts c = some true) :
    ∃ p, getopt m dd argv optstring s = getoptArg m argv optstring p { s with optopt := c.toInt } ∧
      m.IsStr (p + (s.optpos + 1)) cs ∧ ArgsAt m argv (s.optind + 1) rest := by
  obtain ⟨p, e, hp, hm, hc0, hcs⟩ := getopt_at (optstring := optstring) hd h
  refine ⟨p, ?_, hcs, ?_⟩
  · rw [e]
    unfold getoptAt
    rw [load_some hm, Res.ok_bind]
    rcases strchr_opts ho ho0 hok hc hc0 with ⟨h1, -⟩ | ⟨q, b, k, h1, h2, h3, h4, h5⟩
    · rw [h1] at hk; cases hk
    · rw [h1] at hk; cases hk
      rw [h2, Res.ok_bind, if_neg h3, load_some h4, Res.ok_bind, if_pos (h5.2 rfl)]
  · obtain ⟨g0, p', w, d, g1, g2, g3, g4, g5, g6, g7⟩ := h
    exact g7

/-- An unknown option. -/
theorem getopt_unknown {m : Mem} {dd : Nat} {argv : List Nat} {optstring : Nat} {quiet : Bool} {opts : Spec.Opts} {s : Getopt} {c : Byte}
    {cs : List Byte} {rest : List (List Byte)} (hd : m.IsStr dd [45#8, 45#8]) (ho : m.IsStr optstring (optString quiet opts))
    (ho0 : optstring ≠ 0) (hok : Spec.OptsOk opts) (h : OptRep m argv s (c :: cs) rest) (hc : c ≠ 58#8)
    (hk : Spec.optKind opts c = none) : getopt m dd argv optstring s = .ok ({ s with optopt := c.toInt }, 63) := by
  obtain ⟨p, e, hp, hm, hc0, hcs⟩ := getopt_at (optstring := optstring) hd h
  rw [e]
  unfold getoptAt
  rw [load_some hm, Res.ok_bind]
  rcases strchr_opts ho ho0 hok hc hc0 with ⟨h1, h2⟩ | ⟨q, b, k, h1, h2, h3, h4, h5⟩
  · rw [h2, Res.ok_bind, if_pos rfl]; rfl
  · rw [h1] at hk; cases hk

/-- A missing argument. -/
theorem getopt_missing {m : Mem} {dd : Nat} {argv : List Nat} {optstring : Nat} {quiet : Bool} {opts : Spec.Opts} {s : Getopt} {c : Byte}
    (hd : m.IsStr dd [45#8, 45#8]) (ho : m.IsStr optstring (optString quiet opts))
    (ho0 : optstring ≠ 0) (hok : Spec.OptsOk opts) (h : OptRep m argv s [c] []) (hc : c ≠ 58#8)
    (hk : Spec.optKind opts c = some true) :
    getopt m dd argv optstring s = .ok ({ s with optopt := c.toInt }, if quiet then 58 else 63) := by
  obtain ⟨p, e, hcs, ha⟩ := getopt_arg hd ho ho0 hok h hc hk
  rw [e]
  unfold getoptArg
  dsimp only
  rw [Nat.add_assoc, load_some (isStr_nil.1 hcs), Res.ok_bind, if_neg (by simp), argsAt_nil ha, Res.ok_bind, if_neg (by simp)]
  cases quiet with
  | false =>
    obtain ⟨k, hk1, hk2⟩ := optText_head ho hok
    rw [load_some hk1, Res.ok_bind, if_neg hk2]; rfl
  | true =>
    obtain ⟨h1, -, -⟩ := isStr_cons.1 (show m.IsStr optstring (58#8 :: Spec.optText opts) from ho)
    rw [load_some h1, Res.ok_bind, if_pos rfl]; rfl

theorem argsAt_length {m : Mem} {argv : List Nat} {i : Nat} {ws : List (List Byte)} (h : ArgsAt m argv i ws) :
    i + ws.length + 1 = argv.length := by
  obtain ⟨ptrs, h1, -, h3⟩ := h
  have := congrArg List.length h1
  rw [List.length_drop, List.length_append, h3.length_eq] at this
  simp at this
  omega

theorem optRep_open {m : Mem} {argv : List Nat} {s : Getopt} {w cs : List Byte} {rest : List (List Byte)}
    (h : OptRep m argv s [] (w :: rest)) (hc : Spec.cluster w = some cs) : OptRep m argv s cs rest := by
  obtain ⟨h0, h1, h2⟩ := h
  obtain ⟨p, e, hp, hs, ha⟩ := argsAt_cons h2
  cases w with
  | nil => cases hc
  | cons a w =>
    cases w with
    | nil => cases hc
    | cons b w =>
      simp only [Spec.cluster] at hc
      by_cases hab : a = 45#8 ∧ Spec.Alnum b
      · rw [if_pos hab] at hc
        obtain ⟨rfl, hb⟩ := hab
        have hc' : b :: w = cs := Option.some.inj hc
        subst hc'
        exact ⟨h0, p, w, b, e, hp, hs, hb, by omega, by rw [h1]; rfl, ha⟩
      · rw [if_neg hab] at hc
        cases hc

theorem getopt_stop {m : Mem} {dd : Nat} {argv : List Nat} {optstring : Nat} {s : Getopt} {rest : List (List Byte)}
    (h : OptRep m argv s [] rest) (hr : rest = [] ∨ ∃ w r, rest = w :: r ∧ w ≠ [45#8, 45#8] ∧ Spec.cluster w = none)
    (hd : m.IsStr dd [45#8, 45#8]) : getopt m dd argv optstring s = .ok (s, -1) := by
  obtain ⟨h0, h1, h2⟩ := h
  have hrs : getoptReset s = s := by unfold getoptReset; rw [if_neg h0]
  unfold getopt
  dsimp only
  rw [hrs]
  rcases hr with rfl | ⟨w, r, rfl, hw, hc⟩
  · rw [argsAt_nil h2, Res.ok_bind]
    rfl
  · obtain ⟨p, e, hp, hs, ha⟩ := argsAt_cons h2
    rw [e, Res.ok_bind, getoptDashes_eq hs hp hd, Res.ok_bind, decide_eq_false hw, if_neg (by simp), getoptStop_eq hs hp,
      Res.ok_bind, hc, if_pos (by simp)]; rfl

theorem getopt_dashes {m : Mem} {dd : Nat} {argv : List Nat} {optstring : Nat} {s : Getopt} {rest : List (List Byte)}
    (h : OptRep m argv s [] ([45#8, 45#8] :: rest)) (hd : m.IsStr dd [45#8, 45#8]) :
    getopt m dd argv optstring s = .ok ({ s with optind := s.optind + 1 }, -1) := by
  obtain ⟨h0, h1, h2⟩ := h
  have hrs : getoptReset s = s := by unfold getoptReset; rw [if_neg h0]
  unfold getopt
  dsimp only
  rw [hrs]
  obtain ⟨p, e, hp, hs, ha⟩ := argsAt_cons h2
  rw [e, Res.ok_bind, getoptDashes_eq hs hp hd, Res.ok_bind, if_pos (by simp)]; rfl

theorem kind_ne_colon {opts : Spec.Opts} {c : Byte} {b : Bool} (hok : Spec.OptsOk opts) (hk : Spec.optKind opts c = some b) : c ≠ 58#8 := by
  rintro rfl
  unfold Spec.optKind at hk
  cases hf : opts.find? (fun o => decide (o.1 = 58#8)) with
  | none => rw [hf] at hk; cases hk
  | some o => exact (hok o (List.mem_of_find?_eq_some hf)).2 (by simpa using List.find?_some hf)

theorem getoptRun_eq {m : Mem} {dd : Nat} {argv : List Nat} {optstring : Nat} {quiet : Bool} {opts : Spec.Opts}
    (hd : m.IsStr dd [45#8, 45#8]) (ho : m.IsStr optstring (optString quiet opts)) (ho0 : optstring ≠ 0) (hok : Spec.OptsOk opts)
    (cur : List Byte) (rest : List (List Byte)) :
    ∀ s, OptRep m argv s cur rest → (Spec.scan opts cur rest).2 ≠ .unknown 58#8 →
      ∃ s' rs, getoptRun m dd argv optstring (Spec.scan opts cur rest).1.length s = .ok (s', rs) ∧
        List.Forall₂ (OptAns m) rs (Spec.scan opts cur rest).1 ∧
        ∃ s'', getopt m dd argv optstring s' = .ok (s'', Spec.lastAnswer quiet (Spec.scan opts cur rest).2) ∧
          OptFinal (argv.length - 1) s'' (Spec.scan opts cur rest).2 := by
  induction cur, rest using Spec.scan.induct opts with
  | case1 =>
    intro s h _
    rw [Spec.scan]
    refine ⟨s, [], rfl, List.Forall₂.nil, s, getopt_stop h (Or.inl rfl) hd, ?_⟩
    have := argsAt_length h.2.2
    simp only [OptFinal]
    simp at this
    omega
  | case2 rest =>
    intro s h _
    rw [Spec.scan]
    simp only [if_true]
    refine ⟨s, [], rfl, List.Forall₂.nil, _, getopt_dashes h hd, ?_⟩
    have := argsAt_length h.2.2
    simp only [OptFinal, List.length_cons] at this ⊢
    omega
  | case3 w rest hw hc =>
    intro s h _
    rw [Spec.scan]
    simp only [if_neg hw, hc]
    refine ⟨s, [], rfl, List.Forall₂.nil, _, getopt_stop h (Or.inr ⟨w, rest, rfl, hw, hc⟩) hd, ?_⟩
    have := argsAt_length h.2.2
    simp only [OptFinal, List.length_cons] at this ⊢
    omega
  | case4 w rest hw cs hc ih =>
    intro s h hne
    rw [Spec.scan] at hne ⊢
    simp only [if_neg hw, hc] at hne ⊢
    exact ih s (optRep_open h hc) hne
  | case5 c cs rest hk =>
    intro s h hne
    rw [Spec.scan.eq_def] at hne ⊢
    simp only [hk] at hne ⊢
    have hc : c ≠ 58#8 := fun hc => hne (by rw [hc])
    exact ⟨s, [], rfl, List.Forall₂.nil, _, getopt_unknown hd ho ho0 hok h hc hk, rfl⟩
  | case6 c cs rest hk ih =>
    intro s h hne
    rw [Spec.scan.eq_def] at hne ⊢
    simp only [hk] at hne ⊢
    obtain ⟨s1, e1, h1⟩ := getopt_flag hd ho ho0 hok h (kind_ne_colon hok hk) hk
    obtain ⟨s', rs, e2, f2, l2⟩ := ih s1 h1 hne
    refine ⟨s', (c.toInt, s1.optarg) :: rs, ?_, List.Forall₂.cons ⟨rfl, by simp⟩ f2, l2⟩
    simp only [Spec.optCons, List.length_cons]
    rw [getoptRun, e1, Res.ok_bind, e2]; rfl
  | case7 c hk d cs rest ih =>
    intro s h hne
    rw [Spec.scan.eq_def] at hne ⊢
    simp only [hk] at hne ⊢
    obtain ⟨p, e1, hcs, ha⟩ := getopt_arg hd ho ho0 hok h (kind_ne_colon hok hk) hk
    obtain ⟨i1, i2, i3⟩ := isStr_cons.1 hcs
    unfold getoptArg at e1
    dsimp only at e1
    rw [Nat.add_assoc, load_some i1, Res.ok_bind, if_pos i2] at e1
    obtain ⟨s', rs, e2, f2, l2⟩ := ih { s with optopt := c.toInt, optarg := p + (s.optpos + 1), optind := s.optind + 1, optpos := 1 }
      ⟨by simp, rfl, ha⟩ hne
    refine ⟨s', (c.toInt, p + (s.optpos + 1)) :: rs, ?_, List.Forall₂.cons ⟨rfl, ?_⟩ f2, l2⟩
    · simp only [Spec.optCons, List.length_cons]
      rw [getoptRun, e1]
      show (do let r ← Res.ok _; _) = _
      rw [Res.ok_bind]
      dsimp only
      rw [e2]; rfl
    · intro w hw
      cases hw
      exact hcs
  | case8 c hk w rest ih =>
    intro s h hne
    rw [Spec.scan.eq_def] at hne ⊢
    simp only [hk] at hne ⊢
    obtain ⟨p, e1, hcs, ha⟩ := getopt_arg hd ho ho0 hok h (kind_ne_colon hok hk) hk
    obtain ⟨q, a1, a2, a3, a4⟩ := argsAt_cons ha
    unfold getoptArg at e1
    dsimp only at e1
    rw [Nat.add_assoc, load_some (isStr_nil.1 hcs), Res.ok_bind, if_neg (by simp), a1, Res.ok_bind, if_pos a2] at e1
    obtain ⟨s', rs, e2, f2, l2⟩ := ih { s with optopt := c.toInt, optarg := q, optind := s.optind + 2, optpos := 1 }
      ⟨by simp, rfl, a4⟩ hne
    refine ⟨s', (c.toInt, q) :: rs, ?_, List.Forall₂.cons ⟨rfl, ?_⟩ f2, l2⟩
    · simp only [Spec.optCons, List.length_cons]
      rw [getoptRun, e1]
      show (do let r ← Res.ok _; _) = _
      rw [Res.ok_bind]
      dsimp only
      rw [e2]; rfl
    · intro x hx
      cases hx
      exact a3
  | case9 c hk =>
    intro s h hne
    rw [Spec.scan.eq_def] at hne ⊢
    simp only [hk] at hne ⊢
    exact ⟨s, [], rfl, List.Forall₂.nil, _, getopt_missing hd ho ho0 hok h (kind_ne_colon hok hk) hk, rfl⟩

/-- The variables at the start, or when `optind` was set to 0. -/
def OptFresh (s : Getopt) : Prop := s.optind = 0 ∨ (s.optind = 1 ∧ s.optpos = 1)

/-- `argv` are the name of the program, the words, and NULL. -/
def ArgvIs (m : Mem) (argv : List Nat) (words : List (List Byte)) : Prop := ArgsAt m argv 1 words

theorem getopt_reset (m : Mem) (dd : Nat) (argv : List Nat) (optstring : Nat) (s : Getopt) :
    getopt m dd argv optstring s = getopt m dd argv optstring (getoptReset s) := by
  have : getoptReset (getoptReset s) = getoptReset s := by
    unfold getoptReset
    by_cases h : s.optind = 0
    · rw [if_pos h, if_neg (by simp)]
    · rw [if_neg h, if_neg h]
  unfold getopt
  dsimp only
  rw [this]

theorem optRep_fresh {m : Mem} {argv : List Nat} {words : List (List Byte)} {s : Getopt} (hs : OptFresh s) (ha : ArgvIs m argv words) :
    OptRep m argv (getoptReset s) [] words := by
  unfold getoptReset
  by_cases h : s.optind = 0
  · rw [if_pos h]; exact ⟨by simp, rfl, ha⟩
  · rw [if_neg h]
    obtain ⟨h1, h2⟩ := hs.resolve_left h
    exact ⟨h, h2, by rw [h1]; exact ha⟩

/-- C56: getopt reports exactly the options of the argument vector, in order and with their arguments; then it answers -1 and
`optind` is the index of the first operand, or it answers '?' (':' when the option string starts with a colon and an argument is
missing) and `optopt` is the offending option.  No call has undefined behaviour.  Partial: a colon as an option character, see
C56_colon_refuted; calls after an error, see C56_ends_refuted. -/
theorem C56_getopt_partial {m : Mem} {dd : Nat} {argv : List Nat} {words : List (List Byte)} {optstring : Nat} {quiet : Bool}
    {opts : Spec.Opts} {s : Getopt} (hd : m.IsStr dd [45#8, 45#8]) (ho : m.IsStr optstring (optString quiet opts))
    (ho0 : optstring ≠ 0) (hok : Spec.OptsOk opts) (ha : ArgvIs m argv words) (hs : OptFresh s)
    (hne : (Spec.scan opts [] words).2 ≠ .unknown 58#8) :
    ∃ s' rs, getoptRun m dd argv optstring ((Spec.scan opts [] words).1.length + 1) s =
        .ok (s', rs ++ [(Spec.lastAnswer quiet (Spec.scan opts [] words).2, s'.optarg)]) ∧
      List.Forall₂ (OptAns m) rs (Spec.scan opts [] words).1 ∧ OptFinal (argv.length - 1) s' (Spec.scan opts [] words).2 := by
  obtain ⟨s1, rs, e1, f1, s2, e2, l2⟩ := getoptRun_eq hd ho ho0 hok [] words _ (optRep_fresh hs ha) hne
  refine ⟨s2, rs, ?_, f1, l2⟩
  have hsplit : ∀ n (s : Getopt) s1 rs s2 x, getoptRun m dd argv optstring n s = .ok (s1, rs) →
      getopt m dd argv optstring s1 = .ok (s2, x) →
      getoptRun m dd argv optstring (n + 1) s = .ok (s2, rs ++ [(x, s2.optarg)]) := by
    intro n
    induction n with
    | zero =>
      intro s s1 rs s2 x h1 h2
      cases h1
      rw [getoptRun, h2, Res.ok_bind]; rfl
    | succ n ih =>
      intro s s1 rs s2 x h1 h2
      rw [getoptRun] at h1
      cases hg : getopt m dd argv optstring s with
      | ub => rw [hg] at h1; cases h1
      | div => rw [hg] at h1; cases h1
      | ok r =>
        rw [hg, Res.ok_bind] at h1
        cases hq : getoptRun m dd argv optstring n r.1 with
        | ub => rw [hq] at h1; cases h1
        | div => rw [hq] at h1; cases h1
        | ok q =>
          rw [hq, Res.ok_bind] at h1
          cases h1
          rw [getoptRun, hg, Res.ok_bind, ih _ _ _ _ _ hq h2]; rfl
  have h := hsplit _ _ _ _ _ _ e1 e2
  rw [getoptRun, ← getopt_reset] at h
  rw [getoptRun]
  exact h

/-- C56: after an error every later call answers with the same error: the option is not skipped. -/
theorem C56_getopt_stuck {m : Mem} {dd : Nat} {argv : List Nat} {words : List (List Byte)} {optstring : Nat} {quiet : Bool}
    {opts : Spec.Opts} {s : Getopt} {cur : List Byte} {c : Byte} (hd : m.IsStr dd [45#8, 45#8])
    (ho : m.IsStr optstring (optString quiet opts)) (ho0 : optstring ≠ 0) (hok : Spec.OptsOk opts)
    (hr : OptRep m argv s (c :: cur) words) (hc : c ≠ 58#8)
    (he : Spec.optKind opts c = none ∨ (Spec.optKind opts c = some true ∧ cur = [] ∧ words = [])) (n : Nat) :
    ∃ s' rs, getoptRun m dd argv optstring n s = .ok (s', rs) ∧ ∀ r ∈ rs, r.1 = 63 ∨ r.1 = 58 := by
  induction n generalizing s with
  | zero => exact ⟨s, [], rfl, by simp⟩
  | succ n ih =>
    have hr' : OptRep m argv { s with optopt := c.toInt } (c :: cur) words := hr
    obtain ⟨s', rs, e, h⟩ := ih hr'
    rcases he with he | ⟨he, rfl, rfl⟩
    · refine ⟨s', (63, s.optarg) :: rs, ?_, ?_⟩
      · rw [getoptRun, getopt_unknown hd ho ho0 hok hr hc he, Res.ok_bind, e]; rfl
      · intro r hr
        rcases List.mem_cons.1 hr with rfl | hr
        · exact Or.inl rfl
        · exact h r hr
    · refine ⟨s', (if quiet then 58 else 63, s.optarg) :: rs, ?_, ?_⟩
      · rw [getoptRun, getopt_missing hd ho ho0 hok hr hc he, Res.ok_bind, e]; rfl
      · intro r hr
        rcases List.mem_cons.1 hr with rfl | hr
        · cases quiet
          · exact Or.inl rfl
          · exact Or.inr rfl
        · exact h r hr

/-! ### an argument vector -/

/-- prog -ab -cx -d file -- -a, with the options a, b, c:, d: -/
def exOpts : Spec.Opts := [(97#8, false), (98#8, false), (99#8, true), (100#8, true)]
def exWords : List (List Byte) :=
  [[45#8, 97#8, 98#8], [45#8, 99#8, 120#8], [45#8, 100#8], [102#8], [45#8, 45#8], [45#8, 97#8]]
def exArgMem : Mem :=
  objects [(10, [45#8, 97#8, 98#8, 0#8]), (20, [45#8, 99#8, 120#8, 0#8]), (30, [45#8, 100#8, 0#8]), (40, [102#8, 0#8]),
    (50, [45#8, 45#8, 0#8]), (60, [45#8, 97#8, 0#8]), (70, [97#8, 98#8, 99#8, 58#8, 100#8, 58#8, 0#8])]
def exArgv : List Nat := [5, 10, 20, 30, 40, 50, 60, 0]

theorem exArgvIs : ArgvIs exArgMem exArgv exWords := by
  refine ⟨[10, 20, 30, 40, 50, 60], rfl, by decide, ?_⟩
  unfold exWords
  repeat (first | exact List.Forall₂.nil | refine List.Forall₂.cons ⟨by decide, by decide⟩ ?_)

theorem exScan : Spec.scan exOpts [] exWords =
    ([(97#8, none), (98#8, none), (99#8, some [120#8]), (100#8, some [102#8])], .done 1) := by
  simp [Spec.scan, exOpts, exWords, Spec.cluster, Spec.optKind, Spec.optCons, Spec.Alnum]

example : ∃ s' rs, getoptRun exArgMem 50 exArgv 70 5 ⟨1, 1, 0, 0⟩ = .ok (s', rs ++ [(-1, s'.optarg)]) ∧
    List.Forall₂ (OptAns exArgMem) rs [(97#8, none), (98#8, none), (99#8, some [120#8]), (100#8, some [102#8])] ∧
    s'.optind = 6 := by
  obtain ⟨s', rs, h1, h2, h3⟩ := C56_getopt_partial (dd := 50) (optstring := 70) (quiet := false) (opts := exOpts) (s := ⟨1, 1, 0, 0⟩)
    ⟨by decide, by decide⟩ ⟨by decide, by decide⟩ (by decide) (by decide) exArgvIs (Or.inr ⟨rfl, rfl⟩) (by rw [exScan]; decide)
  rw [exScan] at h1 h2 h3
  exact ⟨s', rs, h1, h2, by simpa [OptFinal, exArgv] using h3⟩

/-! ### where the property fails -/

/-- The usual loop over the options comes to an end: some call answers -1. -/
def C56_ends_full : Prop :=
  ∀ (m : Mem) (dd : Nat) (argv : List Nat) (words : List (List Byte)) (optstring : Nat) (quiet : Bool) (opts : Spec.Opts)
    (s : Getopt), m.IsStr dd [45#8, 45#8] → m.IsStr optstring (optString quiet opts) → optstring ≠ 0 → Spec.OptsOk opts →
    ArgvIs m argv words → OptFresh s →
    ∃ n s' rs, getoptRun m dd argv optstring n s = .ok (s', rs) ∧ ∃ r ∈ rs, r.1 = -1

def exBadMem : Mem := objects [(10, [45#8, 120#8, 0#8]), (50, [45#8, 45#8, 0#8]), (70, [97#8, 0#8])]

/-- C56: an unknown option is reported again and again, the loop never ends. -/
theorem C56_ends_refuted : ¬ C56_ends_full := by
  intro h
  have hargs : ArgvIs exBadMem [5, 10, 0] [[45#8, 120#8]] :=
    ⟨[10], rfl, by decide, List.Forall₂.cons ⟨by decide, by decide⟩ List.Forall₂.nil⟩
  obtain ⟨n, s', rs, h1, r, hr, h2⟩ := h exBadMem 50 [5, 10, 0] [[45#8, 120#8]] 70 false [(97#8, false)] ⟨1, 1, 0, 0⟩
    ⟨by decide, by decide⟩ ⟨by decide, by decide⟩ (by decide) (by decide) hargs (Or.inr ⟨rfl, rfl⟩)
  have hrep := optRep_open (cs := [120#8]) (optRep_fresh (s := ⟨1, 1, 0, 0⟩) (Or.inr ⟨rfl, rfl⟩) hargs) (by decide)
  obtain ⟨s'', rs', h3, h4⟩ := C56_getopt_stuck (dd := 50) (optstring := 70) (quiet := false) (opts := [(97#8, false)])
    ⟨by decide, by decide⟩ ⟨by decide, by decide⟩ (by decide) (by decide) hrep (by decide) (Or.inl (by decide)) n
  have : getoptReset ⟨1, 1, 0, 0⟩ = ⟨1, 1, 0, 0⟩ := rfl
  rw [this, h1] at h3
  cases h3
  rcases h4 r hr with h | h <;> rw [h] at h2 <;> cases h2

/-- An option that is not in the list is answered with '?'. -/
def C56_colon_full : Prop :=
  ∀ (m : Mem) (dd : Nat) (argv : List Nat) (words : List (List Byte)) (optstring : Nat) (quiet : Bool) (opts : Spec.Opts)
    (s : Getopt) (c : Byte) (cs : List Byte), m.IsStr dd [45#8, 45#8] → m.IsStr optstring (optString quiet opts) → optstring ≠ 0 →
    Spec.OptsOk opts → OptRep m argv s (c :: cs) words → Spec.optKind opts c = none →
    ∃ s', getopt m dd argv optstring s = .ok (s', 63)

def exColonMem : Mem := objects [(10, [45#8, 97#8, 58#8, 0#8]), (50, [45#8, 45#8, 0#8]), (70, [98#8, 58#8, 97#8, 0#8])]

/-- C56: in `-a:` the colon is taken for an option, since it occurs in the option string `b:a`. -/
theorem C56_colon_refuted : ¬ C56_colon_full := by
  intro h
  have hrep : OptRep exColonMem [5, 10, 0] ⟨1, 2, 97, 0⟩ [58#8] [] :=
    ⟨by decide, 10, [58#8], 97#8, rfl, by decide, ⟨by decide, by decide⟩, by decide, by decide, rfl,
      [], rfl, by decide, List.Forall₂.nil⟩
  obtain ⟨s', h1⟩ := h exColonMem 50 [5, 10, 0] [] 70 false [(98#8, true), (97#8, false)] ⟨1, 2, 97, 0⟩ 58#8 []
    ⟨by decide, by decide⟩ ⟨by decide, by decide⟩ (by decide) (by decide) hrep (by decide)
  have h2 : getopt exColonMem 50 [5, 10, 0] 70 ⟨1, 2, 97, 0⟩ = .ok (⟨2, 1, 58, 0⟩, 58) := by
    unfold getopt
    dsimp only
    rw [show getoptReset ⟨1, 2, 97, 0⟩ = ⟨1, 2, 97, 0⟩ from rfl, show argvAt [5, 10, 0] 1 = .ok 10 from rfl, Res.ok_bind,
      getoptDashes_eq (w := [45#8, 97#8, 58#8]) ⟨by decide, by decide⟩ (by decide) ⟨by decide, by decide⟩, Res.ok_bind,
      if_neg (by decide), getoptStop_eq (w := [45#8, 97#8, 58#8]) ⟨by decide, by decide⟩ (by decide), Res.ok_bind, if_neg (by decide)]
    unfold getoptAt strchr
    dsimp only
    rw [show exColonMem.load (10 + 2) = .ok 58#8 by decide, Res.ok_bind, strchrnul_step (b := 98#8) (by decide) (by decide),
      if_neg (by decide), strchrnul_step (b := 58#8) (by decide) (by decide), if_pos rfl]
    rfl
  rw [h2] at h1
  cases h1

/-- C56: `prog -xa` with the options a and b: x is unknown, and every call answers so. -/
example (n : Nat) : ∃ s' rs, getoptRun (objects [(10, [45#8, 120#8, 97#8, 0#8]), (50, [45#8, 45#8, 0#8]), (70, [98#8, 58#8, 97#8, 0#8])]) 50 [5, 10, 0] 70 n
      ⟨1, 1, 0, 0⟩ = .ok (s', rs) ∧ ∀ r ∈ rs, r.1 = 63 ∨ r.1 = 58 :=
  C56_getopt_stuck (quiet := false) (opts := [(98#8, true), (97#8, false)]) (cur := [97#8]) (c := 120#8) (words := [])
    ⟨by decide, by decide⟩ ⟨by decide, by decide⟩ (by decide) (by decide)
    ⟨by decide, 10, [97#8], 120#8, rfl, by decide, ⟨by decide, by decide⟩, by decide, by decide, rfl, [], rfl, by decide, List.Forall₂.nil⟩
    (by decide) (Or.inl (by decide)) n

end Minilib

import Verif.Lemmas.Regetopt
import Verif.Props.Getopt
/-
C78: getopt_long (contrib/regetopt/regetopt.c).
-/

set_option autoImplicit false

namespace Minilib
open Mem

/-- `n` calls; the variables after every call, and its answer. -/
def regetoptRun (m : Mem) (dd optstring : Nat) (longs : List ReOption) (li : Bool) (argc : Nat) :
    Nat → Regetopt → Res (Regetopt × List (Regetopt × Int))
  | 0, s => .ok (s, [])
  | n + 1, s => do
    let r ← regetopt m dd optstring longs li argc s
    let q ← regetoptRun m dd optstring longs li argc n r.1
    pure (q.1, r :: q.2)

/-- The answer reports the option, `optarg` is its argument, `*longindex` the index of a long one; with a flag in the table the value is stored
there and the answer is 1. -/
def EvAns (m : Mem) (longs : List ReOption) (specs : List Spec.LOpt) (li : Bool) (r : Regetopt × Int) : Spec.OptEv → Prop
  | .short c arg => r.2 = c.toInt ∧ r.1.optopt = c.toInt ∧ ∀ w, arg = some w → m.IsStr r.1.optarg w
  | .long i arg => ∃ o, longs[i]? = some o ∧ (o.flag = 0 → r.2 = o.val) ∧ (o.flag ≠ 0 → r.2 = 1 ∧ r.1.vars o.flag = o.val) ∧
      (li = true → r.1.longindex = i) ∧ (∀ w, arg = some w → m.IsStr r.1.optarg w) ∧
      (arg = none → Spec.kindAt specs i = .optional → r.1.optarg = 0)

/-- The answers at the end that regetopt gives. -/
def reAnswer : Spec.LongEnd → Int
  | .done _ _ => -1
  | .missing _ => 58
  | _ => 63

/-- The number of messages at the end. -/
def reSaid (opterr : Bool) : Spec.LongEnd → Nat
  | .done _ _ => 0
  | .unknownLong _ => 1
  | _ => if opterr then 1 else 0

/-- From `i` on there are pointers to the words, and NULL. -/
def OperandsAt (m : Mem) (argv : List Nat) (i : Nat) (ws : List (List Byte)) : Prop :=
  ∃ ptrs, argv.drop i = ptrs ++ [0] ∧ (∀ p ∈ ptrs, p ≠ 0) ∧ List.Forall₂ (fun p w => m.IsStr p w) ptrs ws

/-- The variables after the last answer: nothing but the order of the vector changed; the operands are at its end, first those behind the
`--`; or `optopt` is the offending character. -/
def ReFinal (m : Mem) (s s' : Regetopt) (e : Spec.LongEnd) : Prop :=
  s'.argv.Perm s.argv ∧ s'.opterr = s.opterr ∧ s'.said = s.said + reSaid s.opterr e ∧
  match e with
  | .done before after => OperandsAt m s'.argv s'.optind (after ++ before)
  | .unknown c => s'.optopt = c.toInt
  | .missing c => s'.optopt = c.toInt
  | _ => True

/-- After an error the same error is ahead. -/
def ReStay (m : Mem) (opts : Spec.Opts) (specs : List Spec.LOpt) (s : Regetopt) (e : Spec.LongEnd) : Prop :=
  (∀ b a, e ≠ .done b a) → ∃ cur rest before, ReRep m s cur rest before ∧ Spec.lscan opts specs cur rest before = ([], e)

/-- The calls report these options and end this way. -/
def ReGoal (m : Mem) (dd optstring : Nat) (opts : Spec.Opts) (longs : List ReOption) (specs : List Spec.LOpt) (li : Bool) (argc : Nat) (s : Regetopt)
    (r : List Spec.OptEv × Spec.LongEnd) : Prop :=
  ∃ s' rs, regetoptRun m dd optstring longs li argc (r.1.length + 1) s = .ok (s', rs ++ [(s', reAnswer r.2)]) ∧
    List.Forall₂ (EvAns m longs specs li) rs r.1 ∧ ReFinal m s s' r.2 ∧ ReStay m opts specs s' r.2

section
variable {m : Mem} {dd optstring : Nat} {opts : Spec.Opts} {longs : List ReOption} {specs : List Spec.LOpt} {li : Bool} {argc : Nat} {s s1 : Regetopt}

theorem regetopt_loop (h : 0 ≤ s.optArgc) :
    regetopt m dd optstring longs li argc s = regetoptLoop m dd optstring longs li argc s := by
  unfold regetopt reInit
  rw [if_neg (by omega)]

theorem goal_skip {r : List Spec.OptEv × Spec.LongEnd} (h : 0 ≤ s.optArgc) (h1 : 0 ≤ s1.optArgc)
    (e : regetoptLoop m dd optstring longs li argc s = regetoptLoop m dd optstring longs li argc s1) (hk : ReKeep s s1)
    (hg : ReGoal m dd optstring opts longs specs li argc s1 r) : ReGoal m dd optstring opts longs specs li argc s r := by
  obtain ⟨s', rs, g1, g2, ⟨g3, g4, g5, g6⟩, g7⟩ := hg
  refine ⟨s', rs, ?_, g2, ⟨g3.trans hk.2.2, g4.trans hk.1, ?_, g6⟩, g7⟩
  · rw [regetoptRun] at g1 ⊢
    rw [regetopt_loop h1] at g1
    rw [regetopt_loop h, e, g1]
  · rw [g5, hk.1, hk.2.1]

theorem goal_step {ev : Spec.OptEv} {a : Int} {r : List Spec.OptEv × Spec.LongEnd} (h : 0 ≤ s.optArgc)
    (e : regetoptLoop m dd optstring longs li argc s = .ok (s1, a)) (hev : EvAns m longs specs li (s1, a) ev) (hk : ReKeep s s1)
    (hg : ReGoal m dd optstring opts longs specs li argc s1 r) : ReGoal m dd optstring opts longs specs li argc s (Spec.evCons ev r) := by
  obtain ⟨s', rs, g1, g2, ⟨g3, g4, g5, g6⟩, g7⟩ := hg
  refine ⟨s', (s1, a) :: rs, ?_, List.Forall₂.cons hev g2, ⟨g3.trans hk.2.2, g4.trans hk.1, ?_, g6⟩, g7⟩
  · show regetoptRun m dd optstring longs li argc (r.1.length + 1 + 1) s = _
    rw [regetoptRun, regetopt_loop h, e, Res.ok_bind, g1]; rfl
  · rw [g5, hk.1, hk.2.1]; rfl

theorem goal_last {e : Spec.LongEnd} {a : Int} (h : 0 ≤ s.optArgc) (e1 : regetoptLoop m dd optstring longs li argc s = .ok (s1, a))
    (ha : a = reAnswer e) (hf : ReFinal m s s1 e) (hst : ReStay m opts specs s1 e) : ReGoal m dd optstring opts longs specs li argc s ([], e) := by
  refine ⟨s1, [], ?_, List.Forall₂.nil, hf, hst⟩
  show regetoptRun m dd optstring longs li argc (0 + 1) s = _
  rw [regetoptRun, regetopt_loop h, e1, Res.ok_bind, ha]; rfl

theorem stay_done {b a : List (List Byte)} : ReStay m opts specs s (.done b a) := fun h => absurd rfl (h b a)

theorem reRep_argc {cur : List Byte} {rest before : List (List Byte)} (h : ReRep m s cur rest before) : 0 ≤ s.optArgc := by
  obtain ⟨h0, ⟨-, -, h1⟩ | ⟨p, d, w, -, -, -, -, -, -, -, -, h1⟩⟩ := h
  · have := rWords_length h1; omega
  · have := rWords_length h1; omega

theorem operands_of {argv : List Nat} {i : Nat} {rest before : List (List Byte)} (h : RWords m argv i rest before) :
    OperandsAt m argv i (rest ++ before) := by
  obtain ⟨pr, pb, h1, h2, h3, h4, -⟩ := h
  exact ⟨pr ++ pb, by rw [h1]; simp, h2, List.rel_append h3 h4⟩

theorem exts_bound {w : List Byte} {xs : List (List Byte)} {i k : Nat} (h : k ∈ Spec.exts w i xs) : k < i + xs.length := by
  induction xs generalizing i with
  | nil => cases h
  | cons x xs ih =>
    simp only [Spec.exts] at h
    simp only [List.length_cons]
    split at h
    · rcases List.mem_cons.1 h with h | h
      · omega
      · have := ih h; omega
    · have := ih h; omega

theorem pick_bound {names : List (List Byte)} {w : List Byte} {i : Nat} (h : Spec.pick names w = .found i) : i < names.length := by
  unfold Spec.pick at h
  cases hj : names.findIdx? (fun x => decide (x = w)) with
  | some j =>
    rw [hj] at h
    cases h
    exact (List.findIdx?_eq_some_iff_getElem.1 hj).1
  | none =>
    rw [hj] at h
    simp only at h
    split at h
    · cases h
    · rename_i k hk
      cases h
      have := exts_bound (w := w) (xs := names) (i := 0) (k := i) (by rw [hk]; simp)
      omega
    · cases h

theorem longs_at {i : Nat} (hl : LongsAre m longs specs) (hi : i < specs.length) :
    ∃ o, longs[i]? = some o ∧ o.hasArg = kindCode (Spec.kindAt specs i) := by
  obtain ⟨os, e, more, rfl, -, hf⟩ := hl
  have hi' : i < os.length := by rw [hf.length_eq]; exact hi
  refine ⟨os[i], ?_, ?_⟩
  · rw [List.getElem?_append_left hi', List.getElem?_eq_getElem hi']
  · have := (List.forall₂_iff_get.1 hf).2 i hi' hi
    rw [show os[i] = os.get ⟨i, hi'⟩ from rfl, this.2.2.2]
    unfold Spec.kindAt
    rw [List.getElem?_eq_getElem hi]; rfl

/-- The end of a long option. -/
theorem longEnd_ans {i : Nat} {o : ReOption} {arg : Option (List Byte)} (ho : longs[i]? = some o)
    (h1 : ∀ w, arg = some w → m.IsStr s.optarg w) (h2 : arg = none → Spec.kindAt specs i = .optional → s.optarg = 0) :
    EvAns m longs specs li (reLongEnd li i o s) (.long i arg) := by
  refine ⟨o, ho, ?_⟩
  unfold reLongEnd
  cases li <;> by_cases hf : o.flag = 0 <;> simp [hf] <;> exact ⟨h1, h2⟩

theorem longEnd_keep {i : Int} {o : ReOption} : ReKeep s (reLongEnd li i o s).1 := by
  unfold reLongEnd
  cases li <;> by_cases hf : o.flag = 0 <;> simp [hf] <;> exact reKeep_refl s

theorem longEnd_rep {i : Int} {o : ReOption} {rest before : List (List Byte)} (hp : s.pos = 1) (hr : RWords m s.argv (s.optind + 1) rest before)
    (ha : s.optArgc = (s.argv.length : Int) - 1 - before.length) : ReRep m (reLongEnd li i o s).1 [] rest before := by
  unfold reLongEnd
  cases li <;> by_cases hf : o.flag = 0 <;> simp [hf] <;> exact ⟨ha, Or.inl ⟨rfl, hp, hr⟩⟩

theorem goal_long_step {s2 : Regetopt} {i : Nat} {o : ReOption} {arg : Option (List Byte)} {rest before : List (List Byte)}
    {r : List Spec.OptEv × Spec.LongEnd} (h : 0 ≤ s.optArgc) (e : regetoptLoop m dd optstring longs li argc s = .ok (reLongEnd li i o s2))
    (ho : longs[i]? = some o) (hk : ReKeep s s2) (h1 : ∀ w, arg = some w → m.IsStr s2.optarg w)
    (h2 : arg = none → Spec.kindAt specs i = .optional → s2.optarg = 0) (hp : s2.pos = 1) (hr : RWords m s2.argv (s2.optind + 1) rest before)
    (ha : s2.optArgc = (s2.argv.length : Int) - 1 - before.length) (hargc : s.argv.length = argc + 1)
    (ih : ∀ s, ReRep m s [] rest before → s.argv.length = argc + 1 → ReGoal m dd optstring opts longs specs li argc s r) :
    ReGoal m dd optstring opts longs specs li argc s (Spec.evCons (.long i arg) r) := by
  have hk2 : ReKeep s (reLongEnd li i o s2).1 := hk.trans longEnd_keep
  exact goal_step (s1 := (reLongEnd li i o s2).1) (a := (reLongEnd li i o s2).2) h e (longEnd_ans ho h1 h2) hk2
    (ih _ (longEnd_rep hp hr ha) (by rw [hk2.2.2.length_eq]; exact hargc))

theorem reSay_keep (hk : ReKeep s s1) : (reSay s1).argv.Perm s.argv ∧ (reSay s1).opterr = s.opterr ∧
    (reSay s1).said = s.said + if s.opterr then 1 else 0 := by
  unfold reSay
  obtain ⟨h1, h2, h3⟩ := hk
  rw [← h1, ← h2]
  cases hq : s1.opterr
  · exact ⟨h3, hq, rfl⟩
  · exact ⟨h3, rfl, rfl⟩

/-- A long option found in the table. -/
theorem goal_long {w l : List Byte} {rest before : List (List Byte)} {i : Nat} (hd : m.IsStr dd [45#8, 45#8]) (hl : LongsAre m longs specs)
    (hn : Spec.NoShadow (specs.map (·.name))) (h : ReRep m s [] (w :: rest) before) (hk : Spec.wordKind w = .long l)
    (hp : Spec.longPick specs l = .found i) :
    ∃ s1 eq o, s1.pos = 1 ∧ RWords m s1.argv s1.optind (w :: rest) before ∧ RWords m s1.argv (s1.optind + 1) rest before ∧ s1.optArgc = (s1.argv.length : Int) - 1 - before.length ∧
      ReKeep s s1 ∧ ((Spec.longValue l = none ∧ eq = 0) ∨ ∃ v, Spec.longValue l = some v ∧ eq ≠ 0 ∧ m.IsStr (eq + 1) v) ∧
      longs[i]? = some o ∧
      regetoptLoop m dd optstring longs li argc s = (do
        let r ← reLongArg s1.optArgc (kindCode (Spec.kindAt specs i)) eq s1
        match r with
        | none => pure (reSay s1, 63)
        | some s => pure (reLongEnd li i o s)) := by
  obtain ⟨s1, eq, a1, a0, a2, a3, a4, -, a5, a6⟩ := loop_long (optstring := optstring) (li := li) (argc := argc) hd hl h hk
  have hpick := pick_eq hn (Spec.longName l)
  rw [show Spec.pick (specs.map (·.name)) (Spec.longName l) = .found i from hp] at hpick
  have hi := pick_bound (show Spec.pick (specs.map (·.name)) (Spec.longName l) = .found i from hp)
  rw [List.length_map] at hi
  obtain ⟨o, ho, hka⟩ := longs_at hl hi
  refine ⟨s1, eq, o, a1, a0, a2, a3, a4, a5, ho, ?_⟩
  rw [a6, show pickFrom (Spec.longName l) (specs.map (·.name)) 0 (-1) = some (i : Int) from hpick]
  simp only
  rw [if_neg (by omega)]
  simp only [Int.toNat_natCast, ho, hka]
  rfl

end

/-- The scanning does not end at a colon (which is found in the option string) or at a value for an option that takes none (which is ignored). -/
def ReFair (e : Spec.LongEnd) : Prop := e ≠ .unknown 58#8 ∧ ∀ i, e ≠ .extraLong i

theorem regetopt_goal {m : Mem} {dd optstring : Nat} {longs : List ReOption} {specs : List Spec.LOpt} {li : Bool} {argc : Nat} {quiet : Bool}
    {opts : Spec.Opts} (hd : m.IsStr dd [45#8, 45#8]) (ho : m.IsStr optstring (optString quiet opts)) (ho0 : optstring ≠ 0)
    (hol : (optString quiet opts).length < 2147483648) (hok : Spec.OptsOk opts) (hl : LongsAre m longs specs)
    (hn : Spec.NoShadow (specs.map (·.name))) (cur : List Byte) (rest before : List (List Byte)) :
    ∀ s, ReRep m s cur rest before → s.argv.length = argc + 1 → ReFair (Spec.lscan opts specs cur rest before).2 →
      ReGoal m dd optstring opts longs specs li argc s (Spec.lscan opts specs cur rest before) := by
  induction cur, rest, before using Spec.lscan.induct opts specs with
  | case1 before =>
    intro s h hargc _
    rw [Spec.lscan]
    obtain ⟨s1, e1, h1, h2, h3, h4, h5⟩ := loop_open (optstring := optstring) (longs := longs) (li := li) (argc := argc) hd h
    have hlen := rWords_length h2
    simp at hlen
    refine goal_last (reRep_argc h) (e1.trans (loop_end (by omega))) rfl ⟨h4.2.2, h4.1, by rw [h4.2.1]; rfl, ?_⟩ stay_done
    exact operands_of h2
  | case2 before w rest hk =>
    intro s h hargc _
    rw [Spec.lscan]
    simp only [hk]
    obtain ⟨s1, e1, h1, h2, h3, h4, h5⟩ := loop_open (optstring := optstring) (longs := longs) (li := li) (argc := argc) hd h
    have hlen := rWords_length h2
    obtain ⟨p, a1, a2, a3, a4, a5⟩ := rWords_cons h2
    refine goal_last (s1 := { s1 with optind := s1.optind + 1 }) (reRep_argc h) ?_ rfl
      ⟨h4.2.2, h4.1, by simp only; rw [h4.2.1]; rfl, operands_of a5⟩ stay_done
    rw [e1, loop_word hd (by simp at hlen; omega) a1 a2 a3 (by omega), hk]
    rfl
  | case3 before w rest hk ih =>
    intro s h hargc hf
    rw [Spec.lscan] at hf ⊢
    simp only [hk] at hf ⊢
    obtain ⟨s1, e1, h1, h2⟩ := loop_operand (optstring := optstring) (longs := longs) (li := li) hd h hk
    rw [show s.argv.length - 1 = argc by omega] at e1
    exact goal_skip (reRep_argc h) (reRep_argc h1) e1 h2 (ih s1 h1 (by rw [h2.2.2.length_eq]; exact hargc) hf)
  | case4 before w rest cs hk ih =>
    intro s h hargc hf
    rw [Spec.lscan] at hf ⊢
    simp only [hk] at hf ⊢
    obtain ⟨s1, e1, h1, h2, h3⟩ := loop_cluster (optstring := optstring) (longs := longs) (li := li) (argc := argc) hd h hk
    exact goal_skip (reRep_argc h) (reRep_argc h1) e1 h2 (ih s1 h1 (by rw [h3]; exact hargc) hf)
  | case5 before w rest l hk hp =>
    intro s h hargc hf
    rw [Spec.lscan.eq_def] at hf ⊢
    simp only [hk, hp] at hf ⊢
    obtain ⟨s1, eq, a1, a0, a2, a3, a4, -, a5, a6⟩ := loop_long (optstring := optstring) (li := li) (argc := argc) hd hl h hk
    have hpick := pick_eq hn (Spec.longName l)
    rw [show Spec.pick (specs.map (·.name)) (Spec.longName l) = .unknown from hp] at hpick
    obtain ⟨f, hf1, hf2⟩ := hpick
    rw [hf1] at a6
    simp only at a6
    rw [if_pos hf2] at a6
    exact goal_last (reRep_argc h) a6 rfl ⟨a4.2.2, a4.1, by rw [← a4.2.1]; rfl, trivial⟩
      (fun _ => ⟨[], _, _, rep_congr (s := s1) ⟨a3, Or.inl ⟨rfl, a1, a0⟩⟩ rfl rfl rfl rfl, by rw [Spec.lscan.eq_def]; simp only [hk, hp]⟩)
  | case6 before w rest l hk hp =>
    intro s h hargc hf
    rw [Spec.lscan.eq_def] at hf ⊢
    simp only [hk, hp] at hf ⊢
    obtain ⟨s1, eq, a1, a0, a2, a3, a4, -, a5, a6⟩ := loop_long (optstring := optstring) (li := li) (argc := argc) hd hl h hk
    have hpick := pick_eq hn (Spec.longName l)
    rw [show Spec.pick (specs.map (·.name)) (Spec.longName l) = .ambiguous from hp] at hpick
    rw [show pickFrom (Spec.longName l) (specs.map (·.name)) 0 (-1) = none from hpick] at a6
    obtain ⟨f1, f2, f3⟩ := reSay_keep a4
    exact goal_last (reRep_argc h) a6 rfl ⟨f1, f2, f3, trivial⟩
      (fun _ => ⟨[], _, _, rep_congr (s := s1) ⟨a3, Or.inl ⟨rfl, a1, a0⟩⟩ (reSay_fields s1).1 (reSay_fields s1).2.1 (reSay_fields s1).2.2.1 (reSay_fields s1).2.2.2.1, by rw [Spec.lscan.eq_def]; simp only [hk, hp]⟩)
  | case7 before w l hk i hp v rest hv hkind ih =>
    intro s h hargc hf
    rw [Spec.lscan.eq_def] at hf ⊢
    simp only [hk, hp, hv, hkind] at hf ⊢
    obtain ⟨s1, eq, o, a1, a0, a2, a3, a4, a5, a6, a7⟩ := goal_long (optstring := optstring) (li := li) (argc := argc) hd hl hn h hk hp
    obtain ⟨b1, b2⟩ | ⟨v', b1, b2, b3⟩ := a5
    · rw [hv] at b1; cases b1
    rw [hv] at b1; cases b1
    rw [hkind, kindCode, reLongArg, if_pos rfl, if_pos b2, Res.pure_eq, Res.ok_bind] at a7
    exact goal_long_step (reRep_argc h) a7 a6 (a4.trans ⟨rfl, rfl, List.Perm.refl _⟩) (fun w hw => by cases hw; exact b3) (by simp) a1 a2 a3 hargc
      (fun s h h' => ih s h h' hf)
  | case8 before w l hk i hp x rest hv hkind ih =>
    intro s h hargc hf
    rw [Spec.lscan.eq_def] at hf ⊢
    simp only [hk, hp, hv, hkind] at hf ⊢
    obtain ⟨s1, eq, o, a1, a0, a2, a3, a4, a5, a6, a7⟩ := goal_long (optstring := optstring) (li := li) (argc := argc) hd hl hn h hk hp
    obtain ⟨b1, b2⟩ | ⟨v', b1, b2, b3⟩ := a5
    · have hlen := rWords_length a2
      simp only [List.length_cons] at hlen
      obtain ⟨p, c1, c2, c3, c4, c5⟩ := rWords_cons a2
      rw [hkind, kindCode, reLongArg, if_pos rfl, if_neg (by simp [b2]), if_pos (by omega), c1, Res.ok_bind, Res.pure_eq, Res.ok_bind] at a7
      exact goal_long_step (s2 := { s1 with optarg := p, optind := s1.optind + 1 }) (reRep_argc h) a7 a6 (a4.trans ⟨rfl, rfl, List.Perm.refl _⟩)
        (fun w hw => by cases hw; exact c3) (by simp) a1 c5 a3 hargc (fun s h h' => ih s h h' hf)
    · rw [hv] at b1; cases b1
  | case9 before w l hk i hp hv hkind =>
    intro s h hargc hf
    rw [Spec.lscan.eq_def] at hf ⊢
    simp only [hk, hp, hv, hkind] at hf ⊢
    obtain ⟨s1, eq, o, a1, a0, a2, a3, a4, a5, a6, a7⟩ := goal_long (optstring := optstring) (li := li) (argc := argc) hd hl hn h hk hp
    obtain ⟨b1, b2⟩ | ⟨v', b1, b2, b3⟩ := a5
    · have hlen := rWords_length a2
      simp only [List.length_nil] at hlen
      rw [hkind, kindCode, reLongArg, if_pos rfl, if_neg (by simp [b2]), if_neg (by omega), Res.pure_eq, Res.ok_bind] at a7
      obtain ⟨f1, f2, f3⟩ := reSay_keep a4
      exact goal_last (reRep_argc h) a7 rfl ⟨f1, f2, f3, trivial⟩
        (fun _ => ⟨[], _, _, rep_congr (s := s1) ⟨a3, Or.inl ⟨rfl, a1, a0⟩⟩ (reSay_fields s1).1 (reSay_fields s1).2.1 (reSay_fields s1).2.2.1 (reSay_fields s1).2.2.2.1, by rw [Spec.lscan.eq_def]; simp only [hk, hp, hv, hkind]⟩)
    · rw [hv] at b1; cases b1
  | case10 before w l hk i hp rest hkind ih =>
    intro s h hargc hf
    rw [Spec.lscan.eq_def] at hf ⊢
    simp only [hk, hp, hkind] at hf ⊢
    obtain ⟨s1, eq, o, a1, a0, a2, a3, a4, a5, a6, a7⟩ := goal_long (optstring := optstring) (li := li) (argc := argc) hd hl hn h hk hp
    rw [hkind, kindCode, reLongArg, if_neg (by decide), if_pos rfl, Res.pure_eq, Res.ok_bind] at a7
    refine goal_long_step (s2 := { s1 with optarg := if eq ≠ 0 then eq + 1 else 0 }) (reRep_argc h) a7 a6 (a4.trans ⟨rfl, rfl, List.Perm.refl _⟩)
      (fun w hw => ?_) (fun hw _ => ?_) a1 a2 a3 hargc (fun s h h' => ih s h h' hf)
    · obtain ⟨b1, b2⟩ | ⟨v', b1, b2, b3⟩ := a5
      · rw [hw] at b1; cases b1
      · rw [hw] at b1; cases b1
        simp only [if_pos b2]; exact b3
    · obtain ⟨b1, b2⟩ | ⟨v', b1, b2, b3⟩ := a5
      · simp [b2]
      · rw [hw] at b1; cases b1
  | case11 before w l hk i hp rest hv hkind ih =>
    intro s h hargc hf
    rw [Spec.lscan.eq_def] at hf ⊢
    simp only [hk, hp, hv, hkind] at hf ⊢
    obtain ⟨s1, eq, o, a1, a0, a2, a3, a4, a5, a6, a7⟩ := goal_long (optstring := optstring) (li := li) (argc := argc) hd hl hn h hk hp
    rw [hkind, kindCode, reLongArg, if_neg (by decide), if_neg (by decide), Res.pure_eq, Res.ok_bind] at a7
    exact goal_long_step (reRep_argc h) a7 a6 a4 (by simp) (fun _ hw => by rw [hkind] at hw; cases hw) a1 a2 a3 hargc (fun s h h' => ih s h h' hf)
  | case12 before w rest l hk i hp v hv hkind =>
    intro s h hargc hf
    rw [Spec.lscan.eq_def] at hf
    simp only [hk, hp, hv, hkind] at hf
    exact absurd rfl (hf.2 i)
  | case13 before c cs rest hk =>
    intro s h hargc hf
    rw [Spec.lscan.eq_def] at hf ⊢
    simp only [hk] at hf ⊢
    have hc : c ≠ 58#8 := fun hc => hf.1 (by rw [hc])
    obtain ⟨p, a1, a2, a3, a4⟩ := loop_short (longs := longs) (li := li) (argc := argc) hd ho ho0 hol hok hc h
    rw [hk] at a4
    obtain ⟨f1, f2, f3⟩ := reSay_keep (s := s) (s1 := { s with optopt := c.toInt }) (reKeep_refl s)
    obtain ⟨k1, k2, k3, k4, k5⟩ := reSay_fields { s with optopt := c.toInt }
    exact goal_last (reRep_argc h) a4 rfl ⟨f1, f2, f3, k5⟩
      (fun _ => ⟨_, _, _, rep_congr h k1 k2 k3 k4, by rw [Spec.lscan.eq_def]; simp only [hk]⟩)
  | case14 before c cs rest hk ih =>
    intro s h hargc hf
    rw [Spec.lscan.eq_def] at hf ⊢
    simp only [hk] at hf ⊢
    obtain ⟨p, a1, a2, a3, a4⟩ := loop_short (longs := longs) (li := li) (argc := argc) hd ho ho0 hol hok (kind_ne_colon hok hk) h
    rw [hk] at a4
    refine goal_step (reRep_argc h) a4 ⟨rfl, rfl, by simp⟩ (reKeep_refl s) (ih _ ?_ hargc hf)
    obtain ⟨h0, ⟨h1, -, -⟩ | ⟨p, d, w, h1, h2, h3, h4, h5, h6, h7, h8, h9⟩⟩ := h
    · cases h1
    · have hl := congrArg List.length h7
      simp at hl
      exact ⟨h0, Or.inr ⟨p, d, w, h1, h2, h3, h4, h5, by simp, (isStr_drop_cons h3 h7).2.2.2, by simp only; omega, h9⟩⟩
  | case15 before c hk d cs rest ih =>
    intro s h hargc hf
    rw [Spec.lscan.eq_def] at hf ⊢
    simp only [hk] at hf ⊢
    obtain ⟨p, a1, a2, a3, a4⟩ := loop_short (longs := longs) (li := li) (argc := argc) hd ho ho0 hol hok (kind_ne_colon hok hk) h
    rw [hk] at a4
    simp only [reShortArg, List.length_cons] at a4
    rw [if_pos (by omega)] at a4
    refine goal_step (reRep_argc h) a4 ⟨rfl, rfl, fun w hw => by cases hw; exact a2⟩ (reKeep_refl s) (ih _ ?_ hargc hf)
    exact ⟨h.1, Or.inl ⟨rfl, rfl, a3⟩⟩
  | case16 before c hk w rest ih =>
    intro s h hargc hf
    rw [Spec.lscan.eq_def] at hf ⊢
    simp only [hk] at hf ⊢
    obtain ⟨p, a1, a2, a3, a4⟩ := loop_short (longs := longs) (li := li) (argc := argc) hd ho ho0 hol hok (kind_ne_colon hok hk) h
    have hlen := rWords_length a3
    simp only [List.length_cons] at hlen
    obtain ⟨q, c1, c2, c3, c4, c5⟩ := rWords_cons a3
    have h0 := h.1
    rw [hk] at a4
    simp only [reShortArg, List.length_nil] at a4
    rw [if_neg (by omega), if_pos (by omega), c1, Res.ok_bind] at a4
    refine goal_step (reRep_argc h) a4 ⟨rfl, rfl, fun w hw => by cases hw; exact c3⟩ (reKeep_refl s) (ih _ ?_ hargc hf)
    exact ⟨h.1, Or.inl ⟨rfl, rfl, c5⟩⟩
  | case17 before c hk =>
    intro s h hargc hf
    rw [Spec.lscan.eq_def] at hf ⊢
    simp only [hk] at hf ⊢
    obtain ⟨p, a1, a2, a3, a4⟩ := loop_short (longs := longs) (li := li) (argc := argc) hd ho ho0 hol hok (kind_ne_colon hok hk) h
    have hlen := rWords_length a3
    simp only [List.length_nil] at hlen
    have h0 := h.1
    rw [hk] at a4
    simp only [reShortArg, List.length_nil] at a4
    rw [if_neg (by omega), if_neg (by omega)] at a4
    obtain ⟨f1, f2, f3⟩ := reSay_keep (s := s) (s1 := { s with optopt := c.toInt }) (reKeep_refl s)
    obtain ⟨k1, k2, k3, k4, k5⟩ := reSay_fields { s with optopt := c.toInt }
    exact goal_last (reRep_argc h) a4 rfl ⟨f1, f2, f3, k5⟩
      (fun _ => ⟨_, _, _, rep_congr h k1 k2 k3 k4, by rw [Spec.lscan.eq_def]; simp only [hk]⟩)

/-- The variables at the start of the program; `argv` holds the name of the program, the words, and NULL. -/
def ReFresh (m : Mem) (s : Regetopt) (argc : Nat) (words : List (List Byte)) : Prop :=
  s.optArgc < 0 ∧ s.optind = 1 ∧ s.pos = 1 ∧ s.argv.length = argc + 1 ∧ OperandsAt m s.argv 1 words ∧ ∀ w ∈ words, w.length < 2147483647

theorem fresh_rep {m : Mem} {s : Regetopt} {argc : Nat} {words : List (List Byte)} (h : ReFresh m s argc words) :
    ReRep m (reInit argc s) [] words [] := by
  obtain ⟨h1, h2, h3, h4, ⟨ptrs, h5, h6, h7⟩, h8⟩ := h
  unfold reInit
  rw [if_pos h1]
  refine ⟨?_, Or.inl ⟨rfl, h3, ptrs, [], ?_, by simpa using h6, h7, List.Forall₂.nil, h8⟩⟩
  · simp only [h4, List.length_nil]; push_cast; omega
  · simp only [h2]; exact h5

theorem run_init {m : Mem} {dd optstring : Nat} {longs : List ReOption} {li : Bool} {argc n : Nat} {s : Regetopt} (h : 0 ≤ (reInit argc s).optArgc) :
    regetoptRun m dd optstring longs li argc (n + 1) s = regetoptRun m dd optstring longs li argc (n + 1) (reInit argc s) := by
  rw [regetoptRun, regetoptRun, regetopt_loop h]; rfl

/-- What a program sets up before it calls getopt_long. -/
structure ReCall (m : Mem) (dd optstring : Nat) (quiet : Bool) (opts : Spec.Opts) (longs : List ReOption) (specs : List Spec.LOpt) : Prop where
  dashes : m.IsStr dd [45#8, 45#8]
  text : m.IsStr optstring (optString quiet opts)
  notNull : optstring ≠ 0
  short : (optString quiet opts).length < 2147483648
  ok : Spec.OptsOk opts
  table : LongsAre m longs specs

/-- C78 (partial: no name in the table stands behind two names it abbreviates, the scan does not end at a colon or at a value for an option that
takes none): getopt_long reports exactly the options of the argument vector, short and long, in order and with their arguments, a name or a
unique abbreviation of it selecting the long option; then it answers -1 and the operands are at the end of the vector, which is otherwise
only permuted; or it answers '?' or ':' at an error, with one message unless `opterr` is 0. -/
theorem C78_scan_partial {m : Mem} {dd optstring : Nat} {quiet : Bool} {opts : Spec.Opts} {longs : List ReOption} {specs : List Spec.LOpt}
    (hc : ReCall m dd optstring quiet opts longs specs) (hn : Spec.NoShadow (specs.map (·.name))) {li : Bool} {argc : Nat} {s : Regetopt}
    {words : List (List Byte)} (hs : ReFresh m s argc words) (hf : ReFair (Spec.lscan opts specs [] words []).2) :
    ∃ s' rs, regetoptRun m dd optstring longs li argc ((Spec.lscan opts specs [] words []).1.length + 1) s =
        .ok (s', rs ++ [(s', reAnswer (Spec.lscan opts specs [] words []).2)]) ∧
      List.Forall₂ (EvAns m longs specs li) rs (Spec.lscan opts specs [] words []).1 ∧
      ReFinal m s s' (Spec.lscan opts specs [] words []).2 := by
  have hrep := fresh_rep hs
  have hk : ReKeep s (reInit argc s) := by unfold reInit; split <;> exact ⟨rfl, rfl, List.Perm.refl _⟩
  obtain ⟨s', rs, g1, g2, ⟨g3, g4, g5, g6⟩, -⟩ := regetopt_goal (li := li) (argc := argc) hc.dashes hc.text hc.notNull hc.short hc.ok hc.table hn [] words []
    (reInit argc s) hrep (by rw [hk.2.2.length_eq]; exact hs.2.2.2.1) hf
  refine ⟨s', rs, ?_, g2, g3.trans hk.2.2, g4.trans hk.1, ?_, g6⟩
  · rw [run_init (reRep_argc hrep), g1]
  · rw [g5, hk.1, hk.2.1]

/-- The answers agree with those of the specification except that a missing argument of a short option is always answered by ':', that of a
long one never. -/
theorem C78_answers_partial (quiet : Bool) (e : Spec.LongEnd) (h1 : ∀ c, e = .missing c → quiet = true) (h2 : ∀ i, e = .missingLong i → quiet = false) :
    reAnswer e = Spec.longAnswer quiet e := by
  cases e with
  | missing c => rw [h1 c rfl]; rfl
  | missingLong i => rw [h2 i rfl]; rfl
  | _ => rfl

theorem run_add {m : Mem} {dd optstring : Nat} {longs : List ReOption} {li : Bool} {argc : Nat} (a b : Nat) (s : Regetopt) :
    regetoptRun m dd optstring longs li argc (a + b) s = (do
      let q ← regetoptRun m dd optstring longs li argc a s
      let r ← regetoptRun m dd optstring longs li argc b q.1
      pure (r.1, q.2 ++ r.2)) := by
  induction a generalizing s with
  | zero =>
    rw [Nat.zero_add]
    simp only [regetoptRun, Res.ok_bind]
    cases regetoptRun m dd optstring longs li argc b s <;> rfl
  | succ a ih =>
    rw [Nat.succ_add, regetoptRun, regetoptRun]
    cases regetopt m dd optstring longs li argc s with
    | ub => rfl
    | div => rfl
    | ok r =>
      simp only [Res.ok_bind]
      rw [ih]
      cases regetoptRun m dd optstring longs li argc a r.1 with
      | ub => rfl
      | div => rfl
      | ok q =>
        simp only [Res.ok_bind, Res.pure_eq]
        cases regetoptRun m dd optstring longs li argc b q.1 <;> rfl

theorem run_stuck {m : Mem} {dd optstring : Nat} {quiet : Bool} {opts : Spec.Opts} {longs : List ReOption} {specs : List Spec.LOpt}
    (hc : ReCall m dd optstring quiet opts longs specs) (hn : Spec.NoShadow (specs.map (·.name))) {li : Bool} {argc : Nat} {e : Spec.LongEnd}
    (hf : ReFair e) (he : ∀ b a, e ≠ .done b a) (n : Nat) :
    ∀ s cur rest before, ReRep m s cur rest before → s.argv.length = argc + 1 → Spec.lscan opts specs cur rest before = ([], e) →
      ∃ s' rs, regetoptRun m dd optstring longs li argc n s = .ok (s', rs) ∧ rs.length = n ∧ ∀ r ∈ rs, r.2 = reAnswer e := by
  induction n with
  | zero => intro s cur rest before _ _ _; exact ⟨s, [], rfl, rfl, by simp⟩
  | succ n ih =>
    intro s cur rest before hr hl hsc
    obtain ⟨s1, rs1, g1, g2, ⟨g3, g4, g5, g6⟩, g7⟩ := regetopt_goal (li := li) (argc := argc) hc.dashes hc.text hc.notNull hc.short hc.ok hc.table hn
      cur rest before s hr hl (by rw [hsc]; exact hf)
    rw [hsc] at g1 g2 g7
    cases g2
    obtain ⟨c1, r1, b1, k1, k2⟩ := g7 he
    obtain ⟨s2, rs2, q1, q2, q3⟩ := ih s1 c1 r1 b1 k1 (by rw [g3.length_eq]; exact hl) k2
    refine ⟨s2, (s1, reAnswer e) :: rs2, ?_, by simp [q2], ?_⟩
    · rw [Nat.add_comm, run_add]
      rw [show regetoptRun m dd optstring longs li argc 1 s = .ok (s1, [(s1, reAnswer e)]) from g1, Res.ok_bind, q1]; rfl
    · intro r hr
      rcases List.mem_cons.1 hr with h | h
      · rw [h]
      · exact q3 r h

/-- C78: after an error every further call gives the same answer: a program that goes on after '?' or ':' (as usual) never gets to the end. -/
theorem C78_stuck_refuted {m : Mem} {dd optstring : Nat} {quiet : Bool} {opts : Spec.Opts} {longs : List ReOption} {specs : List Spec.LOpt}
    (hc : ReCall m dd optstring quiet opts longs specs) (hn : Spec.NoShadow (specs.map (·.name))) {li : Bool} {argc : Nat} {s : Regetopt}
    {words : List (List Byte)} (hs : ReFresh m s argc words) (hf : ReFair (Spec.lscan opts specs [] words []).2)
    (he : ∀ b a, (Spec.lscan opts specs [] words []).2 ≠ .done b a) (n : Nat) :
    ∃ s' rs as, regetoptRun m dd optstring longs li argc ((Spec.lscan opts specs [] words []).1.length + 1 + n) s = .ok (s', rs ++ as) ∧
      rs.length = (Spec.lscan opts specs [] words []).1.length ∧ as.length = n + 1 ∧
      ∀ r ∈ as, r.2 = reAnswer (Spec.lscan opts specs [] words []).2 := by
  have hrep := fresh_rep hs
  have hk : ReKeep s (reInit argc s) := by unfold reInit; split <;> exact ⟨rfl, rfl, List.Perm.refl _⟩
  have hl : (reInit argc s).argv.length = argc + 1 := by rw [hk.2.2.length_eq]; exact hs.2.2.2.1
  obtain ⟨s1, rs, g1, g2, ⟨g3, g4, g5, g6⟩, g7⟩ := regetopt_goal (li := li) (argc := argc) hc.dashes hc.text hc.notNull hc.short hc.ok hc.table hn [] words []
    (reInit argc s) hrep hl hf
  obtain ⟨c1, r1, b1, k1, k2⟩ := g7 he
  obtain ⟨s2, rs2, q1, q2, q3⟩ := run_stuck (li := li) hc hn hf he n s1 c1 r1 b1 k1 (by rw [g3.length_eq]; exact hl) k2
  refine ⟨s2, rs, (s1, reAnswer (Spec.lscan opts specs [] words []).2) :: rs2, ?_, g2.length_eq, by simp [q2], ?_⟩
  · rw [run_add, run_init (reRep_argc hrep), g1, Res.ok_bind, q1, Res.ok_bind, Res.pure_eq]
    simp
  · intro r hr
    rcases List.mem_cons.1 hr with h | h
    · rw [h]
    · exact q3 r h

/-- The whole claim: the options, the answer at the end, silence when `opterr` is 0, and the operands in order. -/
def ScanHolds (m : Mem) (dd optstring : Nat) (quiet : Bool) (opts : Spec.Opts) (longs : List ReOption) (specs : List Spec.LOpt) (li : Bool)
    (argc : Nat) (s : Regetopt) (r : List Spec.OptEv × Spec.LongEnd) : Prop :=
  ∃ s' rs, regetoptRun m dd optstring longs li argc (r.1.length + 1) s = .ok (s', rs ++ [(s', Spec.longAnswer quiet r.2)]) ∧
    List.Forall₂ (EvAns m longs specs li) rs r.1 ∧ (s.opterr = false → s'.said = s.said) ∧
    match r.2 with
    | .done before after => OperandsAt m s'.argv s'.optind (before ++ after)
    | _ => True

/-- C78, full statement. -/
def C78_scan_full : Prop :=
  ∀ (m : Mem) (dd optstring : Nat) (quiet : Bool) (opts : Spec.Opts) (longs : List ReOption) (specs : List Spec.LOpt) (li : Bool) (argc : Nat)
    (s : Regetopt) (words : List (List Byte)), ReCall m dd optstring quiet opts longs specs → ReFresh m s argc words →
    ScanHolds m dd optstring quiet opts longs specs li argc s (Spec.lscan opts specs [] words [])

/-- Variables at the start. -/
def exRe (argv : List Nat) (opterr : Bool) : Regetopt := ⟨0, 1, opterr, 0, 1, -1, argv, 0, fun _ => 0, 0⟩

/-- `"--"` at 50, the option string `"ab:"` at 70, names at 80 (`out`), 85 (`verbose`), 95 (`vers`), 220 (`aab`), 225 (`aac`), 230 (`aa`); words at 100 (`x`), 110 (`-ab`), 120 (`y`),
130 (`--ou=f`), 140 (`--verb`), 150 (`--`), 160 (`-b`), 170 (`--zz`), 180 (`--verb=1`), 200 (`-:`), 240 (`--aa`). -/
def exReMem : Mem := objects [(50, [45, 45, 0]), (70, [97, 98, 58, 0]), (80, [111, 117, 116, 0]), (85, [118, 101, 114, 98, 111, 115, 101, 0]),
  (95, [118, 101, 114, 115, 0]), (100, [120, 0]), (110, [45, 97, 98, 0]), (120, [121, 0]), (130, [45, 45, 111, 117, 61, 102, 0]),
  (140, [45, 45, 118, 101, 114, 98, 0]), (150, [45, 45, 0]), (160, [45, 98, 0]), (170, [45, 45, 122, 122, 0]),
  (180, [45, 45, 118, 101, 114, 98, 61, 49, 0]), (200, [45, 58, 0]), (220, [97, 97, 98, 0]), (225, [97, 97, 99, 0]), (230, [97, 97, 0]),
  (240, [45, 45, 97, 97, 0])]

def exReOpts : Spec.Opts := [(97#8, false), (98#8, true)]

def exReSpecs : List Spec.LOpt := [⟨[111, 117, 116], .required⟩, ⟨[118, 101, 114, 98, 111, 115, 101], .no⟩, ⟨[118, 101, 114, 115], .optional⟩]

def exReLongs : List ReOption := [⟨80, 1, 0, 1⟩, ⟨85, 0, 900, 7⟩, ⟨95, 2, 0, 3⟩, ⟨0, 0, 0, 0⟩]

theorem exReCall : ReCall exReMem 50 70 false exReOpts exReLongs exReSpecs where
  dashes := by decide
  text := by decide
  notNull := by decide
  short := by decide
  ok := by decide
  table := ⟨exReLongs.take 3, ⟨0, 0, 0, 0⟩, [], rfl, rfl,
    List.Forall₂.cons ⟨by decide, by decide, by decide, by decide⟩ (List.Forall₂.cons ⟨by decide, by decide, by decide, by decide⟩
      (List.Forall₂.cons ⟨by decide, by decide, by decide, by decide⟩ List.Forall₂.nil))⟩

theorem noShadow_of {names : List (List Byte)} (h : ∀ i, i < names.length → (Spec.exts (names.getD i []) 0 (names.take i)).length ≤ 1) :
    Spec.NoShadow names := by
  intro i w hw
  have hi : i < names.length := by
    by_cases hi : i < names.length
    · exact hi
    · rw [List.getElem?_eq_none (by omega)] at hw; cases hw
  have := h i hi
  rw [List.getD_eq_getElem?_getD, hw] at this
  exact this

theorem exReShadow : Spec.NoShadow (exReSpecs.map (·.name)) := noShadow_of (by decide)

theorem exReScan : Spec.lscan exReOpts exReSpecs [] [[120], [45, 97, 98], [121], [45, 45, 111, 117, 61, 102], [45, 45, 118, 101, 114, 98]] [] =
    ([.short 97 none, .short 98 (some [121]), .long 0 (some [102]), .long 1 none], .done [[120]] []) := by
  simp [Spec.lscan, exReOpts, exReSpecs, Spec.wordKind, Spec.longPick, Spec.pick, Spec.exts, Spec.longName, Spec.longValue, Spec.optKind,
    Spec.kindAt, Spec.evCons, Spec.Extends, List.findIdx?_cons]

theorem fresh_of {m : Mem} {argv : List Nat} {opterr : Bool} {argc : Nat} {words : List (List Byte)} (h1 : argv.length = argc + 1)
    (h2 : OperandsAt m argv 1 words) (h3 : ∀ w ∈ words, w.length < 2147483647) : ReFresh m (exRe argv opterr) argc words :=
  ⟨by show (-1 : Int) < 0; omega, rfl, rfl, h1, h2, h3⟩

/-- `prog x -ab y --ou=f --verb`: the options are a, b with y, out with f and verbose, the operand is x. -/
example : ∃ s' r1 r2 r3 r4, regetoptRun exReMem 50 70 exReLongs true 6 5 (exRe [5, 100, 110, 120, 130, 140, 0] true) =
      .ok (s', [r1, r2, r3, r4, (s', -1)]) ∧ r1.2 = 97 ∧ r2.2 = 98 ∧ exReMem.IsStr r2.1.optarg [121] ∧ r3.2 = 1 ∧ exReMem.IsStr r3.1.optarg [102] ∧
      r4.2 = 1 ∧ r4.1.longindex = 1 ∧ r4.1.vars 900 = 7 ∧ OperandsAt exReMem s'.argv s'.optind [[120]] ∧ s'.said = 0 := by
  have hfr : ReFresh exReMem (exRe [5, 100, 110, 120, 130, 140, 0] true) 6
      [[120], [45, 97, 98], [121], [45, 45, 111, 117, 61, 102], [45, 45, 118, 101, 114, 98]] :=
    fresh_of rfl ⟨[100, 110, 120, 130, 140], rfl, by decide, List.Forall₂.cons (by decide) (List.Forall₂.cons (by decide) (List.Forall₂.cons (by decide)
      (List.Forall₂.cons (by decide) (List.Forall₂.cons (by decide) List.Forall₂.nil))))⟩ (by decide)
  obtain ⟨s', rs, h1, h2, h3⟩ := C78_scan_partial (li := true) exReCall exReShadow hfr (by rw [exReScan]; exact ⟨by simp, by simp⟩)
  rw [exReScan] at h1 h2 h3
  cases h2 with | @cons r1 _ _ _ a1 h2 => cases h2 with | @cons r2 _ _ _ a2 h2 => cases h2 with | @cons r3 _ _ _ a3 h2 => cases h2 with
    | @cons r4 _ _ _ a4 h2 =>
      cases h2
      obtain ⟨o3, b3, c3, -, -, d3, -⟩ := a3
      obtain ⟨o4, b4, -, c4, d4, -, -⟩ := a4
      cases b3; cases b4
      exact ⟨s', r1, r2, r3, r4, h1, a1.1, a2.1, a2.2.2 _ rfl, c3 rfl, d3 _ rfl, (c4 (by decide)).1, d4 rfl, (c4 (by decide)).2, h3.2.2.2, h3.2.2.1⟩

/-- What the calls give is unique. -/
theorem scan_unique {m : Mem} {dd optstring : Nat} {quiet : Bool} {opts : Spec.Opts} {longs : List ReOption} {specs : List Spec.LOpt}
    (hc : ReCall m dd optstring quiet opts longs specs) (hn : Spec.NoShadow (specs.map (·.name))) {li : Bool} {argc : Nat} {s : Regetopt}
    {words : List (List Byte)} {r : List Spec.OptEv × Spec.LongEnd} (hr : Spec.lscan opts specs [] words [] = r) (hs : ReFresh m s argc words) (hf : ReFair r.2)
    (hh : ScanHolds m dd optstring quiet opts longs specs li argc s r) :
    ∃ s', reAnswer r.2 = Spec.longAnswer quiet r.2 ∧ ReFinal m s s' r.2 ∧ (s.opterr = false → s'.said = s.said) ∧
      match r.2 with
      | .done before after => OperandsAt m s'.argv s'.optind (before ++ after)
      | _ => True := by
  subst hr
  obtain ⟨s1, rs1, h1, h2, h3⟩ := C78_scan_partial (li := li) hc hn hs hf
  obtain ⟨s2, rs2, g1, g2, g3, g4⟩ := hh
  rw [h1] at g1
  have e := Res.ok.inj g1
  have e1 : s1 = s2 := congrArg Prod.fst e
  have e2 := congrArg Prod.snd e
  simp only at e2
  have e3 := List.append_inj_right' e2 rfl
  subst e1
  refine ⟨s1, ?_, h3, g3, g4⟩
  have := (List.cons.inj e3).1
  exact congrArg Prod.snd this

theorem operands_unique {m : Mem} {argv : List Nat} {i : Nat} {a b : List (List Byte)} (h1 : OperandsAt m argv i a) (h2 : OperandsAt m argv i b) : a = b := by
  obtain ⟨p, h3, -, h4⟩ := h1
  obtain ⟨q, h5, -, h6⟩ := h2
  have e : p = q := List.append_cancel_right (h3.symm.trans h5)
  subst e
  clear h3 h5
  induction h4 generalizing b with
  | nil => cases h6; rfl
  | cons hx _ ih =>
    cases h6 with
    | cons hy h7 => rw [IsStr.unique hx hy, ih h7]

/-- `prog x -- y`: the operands end up as y x. -/
theorem C78_order_refuted : ∃ words, (Spec.lscan exReOpts exReSpecs [] words []).2 = .done [[120]] [[121]] ∧
    ∃ s, ReFresh exReMem s 4 words ∧ ∀ li, ¬ ScanHolds exReMem 50 70 false exReOpts exReLongs exReSpecs li 4 s (Spec.lscan exReOpts exReSpecs [] words []) := by
  have hsc : Spec.lscan exReOpts exReSpecs [] [[120], [45, 45], [121]] [] = ([], .done [[120]] [[121]]) := by
    simp [Spec.lscan, exReOpts, exReSpecs, Spec.wordKind, Spec.longPick, Spec.pick, Spec.exts, Spec.longName, Spec.longValue, Spec.optKind,
    Spec.kindAt, Spec.evCons, Spec.Extends, List.findIdx?_cons]
  have hfr : ReFresh exReMem (exRe [5, 100, 150, 120, 0] true) 4 [[120], [45, 45], [121]] :=
    fresh_of rfl ⟨[100, 150, 120], rfl, by decide, List.Forall₂.cons (by decide) (List.Forall₂.cons (by decide) (List.Forall₂.cons (by decide)
      List.Forall₂.nil))⟩ (by decide)
  refine ⟨_, by rw [hsc], _, hfr, fun li hh => ?_⟩
  rw [hsc] at hh
  obtain ⟨s', -, h1, -, h2⟩ := scan_unique exReCall exReShadow hsc hfr ⟨by simp, by simp⟩ hh
  have := operands_unique h1.2.2.2 h2
  simp at this

/-- `prog -b` without the argument of `b`: the answer is ':', although the option string does not start with a colon. -/
theorem C78_missing_refuted : ∃ words, (Spec.lscan exReOpts exReSpecs [] words []).2 = .missing 98 ∧
    ∃ s, ReFresh exReMem s 2 words ∧ ∀ li, ¬ ScanHolds exReMem 50 70 false exReOpts exReLongs exReSpecs li 2 s (Spec.lscan exReOpts exReSpecs [] words []) := by
  have hsc : Spec.lscan exReOpts exReSpecs [] [[45, 98]] [] = ([], .missing 98) := by
    simp [Spec.lscan, exReOpts, exReSpecs, Spec.wordKind, Spec.longPick, Spec.pick, Spec.exts, Spec.longName, Spec.longValue, Spec.optKind,
    Spec.kindAt, Spec.evCons, Spec.Extends, List.findIdx?_cons]
  have hfr : ReFresh exReMem (exRe [5, 160, 0] true) 2 [[45, 98]] :=
    fresh_of rfl ⟨[160], rfl, by decide, List.Forall₂.cons (by decide) List.Forall₂.nil⟩ (by decide)
  refine ⟨_, by rw [hsc], _, hfr, fun li hh => ?_⟩
  rw [hsc] at hh
  obtain ⟨s', h1, -⟩ := scan_unique exReCall exReShadow hsc hfr ⟨by simp, by simp⟩ hh
  simp [reAnswer, Spec.longAnswer] at h1

/-- `prog --zz` with `opterr` 0: the message is printed nevertheless. -/
theorem C78_silent_refuted : ∃ words, (Spec.lscan exReOpts exReSpecs [] words []).2 = .unknownLong [122, 122] ∧
    ∃ s, s.opterr = false ∧ ReFresh exReMem s 2 words ∧
      ∀ li, ¬ ScanHolds exReMem 50 70 false exReOpts exReLongs exReSpecs li 2 s (Spec.lscan exReOpts exReSpecs [] words []) := by
  have hsc : Spec.lscan exReOpts exReSpecs [] [[45, 45, 122, 122]] [] = ([], .unknownLong [122, 122]) := by
    simp [Spec.lscan, exReOpts, exReSpecs, Spec.wordKind, Spec.longPick, Spec.pick, Spec.exts, Spec.longName, Spec.longValue, Spec.optKind,
    Spec.kindAt, Spec.evCons, Spec.Extends, List.findIdx?_cons]
  have hfr : ReFresh exReMem (exRe [5, 170, 0] false) 2 [[45, 45, 122, 122]] :=
    fresh_of rfl ⟨[170], rfl, by decide, List.Forall₂.cons (by decide) List.Forall₂.nil⟩ (by decide)
  refine ⟨_, by rw [hsc], _, rfl, hfr, fun li hh => ?_⟩
  rw [hsc] at hh
  obtain ⟨s', -, h1, h2, -⟩ := scan_unique exReCall exReShadow hsc hfr ⟨by simp, by simp⟩ hh
  have h3 := h1.2.2.1
  rw [h2 rfl] at h3
  simp [reSaid] at h3

/-- C78 fails. -/
theorem C78_scan_refuted : ¬ C78_scan_full := by
  intro h
  obtain ⟨words, -, s, h1, h2⟩ := C78_order_refuted
  exact h2 true (h _ _ _ _ _ _ _ _ _ _ _ exReCall h1)

/-- The first answer. -/
theorem scan_first {m : Mem} {dd optstring : Nat} {quiet : Bool} {opts : Spec.Opts} {longs : List ReOption} {specs : List Spec.LOpt} {li : Bool}
    {argc : Nat} {s s1 : Regetopt} {a : Int} {r : List Spec.OptEv × Spec.LongEnd} (h : regetopt m dd optstring longs li argc s = .ok (s1, a))
    (hh : ScanHolds m dd optstring quiet opts longs specs li argc s r) :
    (r.1 = [] → a = Spec.longAnswer quiet r.2) ∧ ∀ e es, r.1 = e :: es → EvAns m longs specs li (s1, a) e := by
  obtain ⟨s', rs, g1, g2, -, -⟩ := hh
  rw [regetoptRun, h, Res.ok_bind] at g1
  constructor
  · intro he
    rw [he] at g1 g2
    cases g2
    have := (List.cons.inj (congrArg Prod.snd (Res.ok.inj g1))).1
    exact congrArg Prod.snd this
  · intro e es he
    rw [he] at g2
    cases g2 with
    | @cons x _ rs _ hx hxs =>
      cases hq : regetoptRun m dd optstring longs li argc r.1.length s1 with
      | ub => rw [hq] at g1; cases g1
      | div => rw [hq] at g1; cases g1
      | ok q =>
        rw [hq] at g1
        have := (List.cons.inj (congrArg Prod.snd (Res.ok.inj g1))).1
        rw [this]; exact hx

/-- `prog --verb=1`, an option that takes no argument: the value is silently ignored. -/
theorem C78_value_refuted : ∃ words, (Spec.lscan exReOpts exReSpecs [] words []).2 = .extraLong 1 ∧
    ∃ s, ReFresh exReMem s 2 words ∧ ∀ li, ¬ ScanHolds exReMem 50 70 false exReOpts exReLongs exReSpecs li 2 s (Spec.lscan exReOpts exReSpecs [] words []) := by
  have hsc : Spec.lscan exReOpts exReSpecs [] [[45, 45, 118, 101, 114, 98, 61, 49]] [] = ([], .extraLong 1) := by
    simp [Spec.lscan, exReOpts, exReSpecs, Spec.wordKind, Spec.longPick, Spec.pick, Spec.exts, Spec.longName, Spec.longValue, Spec.optKind,
    Spec.kindAt, Spec.evCons, Spec.Extends, List.findIdx?_cons]
  have hfr : ReFresh exReMem (exRe [5, 180, 0] true) 2 [[45, 45, 118, 101, 114, 98, 61, 49]] :=
    fresh_of rfl ⟨[180], rfl, by decide, List.Forall₂.cons (by decide) List.Forall₂.nil⟩ (by decide)
  refine ⟨_, by rw [hsc], _, hfr, fun li hh => ?_⟩
  rw [hsc] at hh
  obtain ⟨s1, eq, o, a1, a0, a2, a3, a4, a5, a6, a7⟩ := goal_long (optstring := 70) (li := li) (argc := 2) exReCall.dashes exReCall.table exReShadow
    (fresh_rep hfr) (l := [118, 101, 114, 98, 61, 49]) (i := 1) (by decide) (by decide)
  cases a6
  rw [show kindCode (Spec.kindAt exReSpecs 1) = 0 from rfl, reLongArg, if_neg (by decide), if_neg (by decide), Res.pure_eq, Res.ok_bind] at a7
  have := (scan_first (s1 := (reLongEnd li 1 ⟨85, 0, 900, 7⟩ s1).1) (a := (reLongEnd li 1 ⟨85, 0, 900, 7⟩ s1).2) a7 hh).1 rfl
  unfold reLongEnd at this
  cases li <;> simp [Spec.longAnswer] at this

/-- `prog --aa` with the long options aab, aac, aa: called ambiguous, although `aa` is the name of an option. -/
theorem C78_exact_refuted : ∃ longs specs words, ReCall exReMem 50 70 false exReOpts longs specs ∧
    Spec.lscan exReOpts specs [] words [] = ([.long 2 none], .done [] []) ∧
    ∃ s, ReFresh exReMem s 2 words ∧ ∀ li, ¬ ScanHolds exReMem 50 70 false exReOpts longs specs li 2 s (Spec.lscan exReOpts specs [] words []) := by
  have hsc : Spec.lscan exReOpts [⟨[97, 97, 98], .no⟩, ⟨[97, 97, 99], .no⟩, ⟨[97, 97], .no⟩] [] [[45, 45, 97, 97]] [] = ([.long 2 none], .done [] []) := by
    simp [Spec.lscan, exReOpts, exReSpecs, Spec.wordKind, Spec.longPick, Spec.pick, Spec.exts, Spec.longName, Spec.longValue, Spec.optKind,
    Spec.kindAt, Spec.evCons, Spec.Extends, List.findIdx?_cons]
  have hl : LongsAre exReMem [⟨220, 0, 0, 1⟩, ⟨225, 0, 0, 2⟩, ⟨230, 0, 0, 3⟩, ⟨0, 0, 0, 0⟩] [⟨[97, 97, 98], .no⟩, ⟨[97, 97, 99], .no⟩, ⟨[97, 97], .no⟩] :=
    ⟨[⟨220, 0, 0, 1⟩, ⟨225, 0, 0, 2⟩, ⟨230, 0, 0, 3⟩], ⟨0, 0, 0, 0⟩, [], rfl, rfl,
      List.Forall₂.cons ⟨by decide, by decide, by decide, by decide⟩ (List.Forall₂.cons ⟨by decide, by decide, by decide, by decide⟩
        (List.Forall₂.cons ⟨by decide, by decide, by decide, by decide⟩ List.Forall₂.nil))⟩
  have hfr : ReFresh exReMem (exRe [5, 240, 0] true) 2 [[45, 45, 97, 97]] :=
    fresh_of rfl ⟨[240], rfl, by decide, List.Forall₂.cons (by decide) List.Forall₂.nil⟩ (by decide)
  refine ⟨_, _, _, ⟨by decide, by decide, by decide, by decide, by decide, hl⟩, hsc, _, hfr, fun li hh => ?_⟩
  rw [hsc] at hh
  obtain ⟨s1, eq, -, -, -, -, -, -, -, a7⟩ := loop_long (optstring := 70) (li := li) (argc := 2) exReCall.dashes hl (fresh_rep hfr) (l := [97, 97]) (by decide)
  have hp : pickFrom (Spec.longName [97, 97]) (([⟨[97, 97, 98], .no⟩, ⟨[97, 97, 99], .no⟩, ⟨[97, 97], .no⟩] : List Spec.LOpt).map (·.name)) 0 (-1) = none := by decide
  rw [hp] at a7
  obtain ⟨o, h1, h2, -⟩ := (scan_first (s1 := reSay s1) (a := 63) a7 hh).2 _ _ rfl
  cases h1
  exact absurd (h2 rfl) (show ¬ (63 : Int) = 3 by decide)

/-- `prog -:` with the option string `ab:`: answered as if ':' were an option. -/
theorem C78_colon_refuted : ∃ words, (Spec.lscan exReOpts exReSpecs [] words []).2 = .unknown 58 ∧
    ∃ s, ReFresh exReMem s 2 words ∧ ∀ li, ¬ ScanHolds exReMem 50 70 false exReOpts exReLongs exReSpecs li 2 s (Spec.lscan exReOpts exReSpecs [] words []) := by
  have hsc : Spec.lscan exReOpts exReSpecs [] [[45, 58]] [] = ([], .unknown 58) := by
    simp [Spec.lscan, exReOpts, exReSpecs, Spec.wordKind, Spec.longPick, Spec.pick, Spec.exts, Spec.longName, Spec.longValue, Spec.optKind,
    Spec.kindAt, Spec.evCons, Spec.Extends, List.findIdx?_cons]
  have hfr : ReFresh exReMem (exRe [5, 200, 0] true) 2 [[45, 58]] :=
    fresh_of rfl ⟨[200], rfl, by decide, List.Forall₂.cons (by decide) List.Forall₂.nil⟩ (by decide)
  refine ⟨_, by rw [hsc], _, hfr, fun li hh => ?_⟩
  rw [hsc] at hh
  have e := loop_word (optstring := 70) (longs := exReLongs) (li := li) (argc := 2) (s := reInit 2 (exRe [5, 200, 0] true)) (p := 200) (w := [45, 58])
    exReCall.dashes (by decide) rfl (by decide) (by decide) (by decide)
  rw [show Spec.wordKind [45, 58] = .short [58] from by decide] at e
  have e2 : reShort exReMem 70 2 (reInit 2 (exRe [5, 200, 0] true)) =
      .ok ({ reInit 2 (exRe [5, 200, 0] true) with optopt := 58, pos := 2 }, 58) := by
    unfold reShort
    rw [show argvAt (reInit 2 (exRe [5, 200, 0] true)).argv (reInit 2 (exRe [5, 200, 0] true)).optind = .ok 200 from rfl, Res.ok_bind,
      C01_strlen (show exReMem.IsStr 200 [45, 58] by decide) (by decide) (by decide), Res.ok_bind,
      C01_strlen exReCall.text exReCall.notNull exReCall.short]
    rfl
  have e3 : regetopt exReMem 50 70 exReLongs li 2 (exRe [5, 200, 0] true) =
      .ok ({ reInit 2 (exRe [5, 200, 0] true) with optopt := 58, pos := 2 }, 58) := by
    unfold regetopt
    rw [e]
    exact e2
  have := (scan_first e3 hh).1 rfl
  exact absurd this (by decide)

/-- `prog -b`: every call reports the same missing argument. -/
example (n : Nat) : ∃ s' rs as, regetoptRun exReMem 50 70 exReLongs true 2 (0 + 1 + n) (exRe [5, 160, 0] true) = .ok (s', rs ++ as) ∧ rs.length = 0 ∧
    as.length = n + 1 ∧ ∀ r ∈ as, r.2 = 58 := by
  have hsc : Spec.lscan exReOpts exReSpecs [] [[45, 98]] [] = ([], .missing 98) := by
    simp [Spec.lscan, exReOpts, exReSpecs, Spec.wordKind, Spec.longPick, Spec.pick, Spec.exts, Spec.longName, Spec.longValue, Spec.optKind,
    Spec.kindAt, Spec.evCons, Spec.Extends, List.findIdx?_cons]
  have hfr : ReFresh exReMem (exRe [5, 160, 0] true) 2 [[45, 98]] :=
    fresh_of rfl ⟨[160], rfl, by decide, List.Forall₂.cons (by decide) List.Forall₂.nil⟩ (by decide)
  have := C78_stuck_refuted (li := true) exReCall exReShadow hfr (by rw [hsc]; exact ⟨by simp, by simp⟩) (by rw [hsc]; simp) n
  rw [hsc] at this
  exact this

/-- C78: the number of arguments is remembered from the first scan.  After the scan of an empty vector every other vector seems to be at its end. -/
theorem C78_again_refuted {m : Mem} {dd optstring : Nat} {longs : List ReOption} {li : Bool} {s : Regetopt} (hs : ReFresh m s 1 []) :
    ∃ s', regetopt m dd optstring longs li 1 s = .ok (s', -1) ∧
      ∀ argv argc, regetopt m dd optstring longs li argc { s' with argv := argv, optind := 1, pos := 1 } =
        .ok ({ s' with argv := argv, optind := 1, pos := 1 }, -1) := by
  obtain ⟨h1, h2, h3, -⟩ := hs
  refine ⟨{ s with optArgc := 1 }, ?_, fun argv argc => ?_⟩
  · unfold regetopt reInit
    rw [if_pos h1]
    exact loop_end (by simp [h2])
  · unfold regetopt reInit
    rw [if_neg (by simp)]
    exact loop_end (by simp)

/-- C78: a missing argument when the option string begins with a colon. -/
example : reAnswer (.missing 98) = Spec.longAnswer true (.missing 98) := C78_answers_partial true _ (fun _ _ => rfl) (by simp)

end Minilib

import Verif.Model.Parseopts
import Verif.Spec.Parseopts
import Verif.Lemmas.Getopt
/-
C83: PARSEOPTS_short.
-/

set_option autoImplicit false

namespace Minilib
open Mem

theorem optBit_get (l : Nat) (hl : l < 32) (i : Nat) : (optBit l).getLsbD i = decide (i = l) := by
  unfold optBit
  rw [BitVec.getLsbD_shiftLeft]
  by_cases h : i = l
  · subst h; simp [hl]
  · by_cases h2 : i < l
    · simp [h2, h]
    · have : (1#32).getLsbD (i - l) = false := by
        rw [BitVec.getLsbD_one]; simp; omega
      simp [this, h]

theorem and_optBit (x : BitVec 32) (l : Nat) (hl : l < 32) : x &&& optBit l = 0#32 ↔ x.getLsbD l = false := by
  constructor
  · intro h
    have := congrArg (fun v => v.getLsbD l) h
    simpa [optBit_get l hl] using this
  · intro h
    apply BitVec.eq_of_getLsbD_eq
    intro i hi
    rw [BitVec.getLsbD_and, optBit_get l hl]
    by_cases e : i = l
    · subst e; simp [h]
    · simp [e]

/-- The sum of the constants of distinct letters has their bits. -/
theorem sum_bits : ∀ (letters : List Nat), letters.Nodup → (∀ l ∈ letters, l < 32) → ∀ i,
    ((letters.map optBit).foldr (· + ·) 0).getLsbD i = decide (i ∈ letters)
  | [], _, _, i => by simp
  | l :: ls, hn, hb, i => by
    obtain ⟨h1, h2⟩ := List.nodup_cons.mp hn
    have ih := sum_bits ls h2 (fun x hx => hb x (List.mem_cons_of_mem _ hx))
    have hl := hb l (List.mem_cons_self ..)
    simp only [List.map_cons, List.foldr_cons]
    rw [BitVec.add_eq_or_of_and_eq_zero]
    · rw [BitVec.getLsbD_or, ih, optBit_get l hl]; simp
    · rw [BitVec.and_comm, and_optBit _ l hl, ih]; simpa using h1

theorem optExpr_bits {letters : List Nat} {b : Nat} (hn : letters.Nodup) (hb : ∀ l ∈ letters, l < 32) (h1 : 1 ∉ letters) (i : Nat) :
    (optExpr letters b).getLsbD i = decide (i ∈ letters) := by
  have : letters.map (fun l => if l = 1 then BitVec.ofNat 32 b else optBit l) = letters.map optBit :=
    List.map_congr_left fun l hl => if_neg (by intro e; exact h1 (e ▸ hl))
  unfold optExpr
  rw [this]
  exact sum_bits letters hn hb i

/-- The bits of some option characters. -/
def optBits (cs : List Byte) : BitVec 32 := cs.foldl (fun o c => o ||| optBit (c.toInt - 97).toNat) 0

/-- Characters for which there is a bit. -/
def BitChar (c : Byte) : Prop := 0 ≤ Spec.letterNo c ∧ Spec.letterNo c < 32

theorem fold_bits (opts : BitVec 32) (cs : List Byte) : cs.foldl (fun o c => o ||| optBit (c.toInt - 97).toNat) opts = opts ||| optBits cs := by
  unfold optBits
  induction cs generalizing opts with
  | nil => simp
  | cons c cs ih =>
    simp only [List.foldl_cons]
    rw [ih, ih (0 ||| _), BitVec.or_assoc]
    simp

theorem optBits_append (a b : List Byte) : optBits (a ++ b) = optBits a ||| optBits b := by
  conv => lhs; unfold optBits
  rw [List.foldl_append, ← optBits, fold_bits]

theorem unk_iff {letters : List Nat} {b : Nat} (hn : letters.Nodup) (hb : ∀ l ∈ letters, l < 32) (h1 : 1 ∉ letters) {c : Byte} (hc : BitChar c) :
    optExpr letters b &&& optBit (c.toInt - 97).toNat = 0#32 ↔ ¬ ∃ l ∈ letters, (l : Int) = Spec.letterNo c := by
  unfold BitChar Spec.letterNo at *
  rw [and_optBit _ _ (by omega), optExpr_bits hn hb h1, decide_eq_false_iff_not, not_iff_not]
  constructor
  · intro h; exact ⟨_, h, by omega⟩
  · rintro ⟨l, h, e⟩
    rw [show (c.toInt - 97).toNat = l by omega]; exact h

theorem poChars_eq {m : Mem} {letters : List Nat} {p : Nat} (hn : letters.Nodup) (hb : ∀ l ∈ letters, l < 32) (h1 : 1 ∉ letters) :
    ∀ (cs : List Byte) (b : Nat) (opts : BitVec 32) (bad : List Byte), m.IsStr (p + b) cs → (∀ c ∈ cs, BitChar c) →
      poChars m letters p b opts bad = .ok (opts ||| optBits cs, bad ++ cs.filter fun c => ¬ ∃ l ∈ letters, (l : Int) = Spec.letterNo c) := by
  intro cs
  induction cs with
  | nil =>
    intro b opts bad hs _
    rw [isStr_nil] at hs
    rw [poChars, load_some hs, Res.ok_bind, if_pos rfl]
    simp [optBits]
  | cons c cs ih =>
    intro b opts bad hs hc
    obtain ⟨a1, a2, a3⟩ := isStr_cons.mp hs
    have hcc := hc c (List.mem_cons_self ..)
    rw [poChars, load_some a1, Res.ok_bind, if_neg a2, if_neg (by unfold BitChar Spec.letterNo at hcc; omega)]
    simp only []
    rw [ih (b + 1) _ _ (by rw [← Nat.add_assoc]; exact a3) (fun x hx => hc x (List.mem_cons_of_mem _ hx))]
    congr 2
    · rw [BitVec.or_assoc]
      congr 1
      have := optBits_append [c] cs
      rw [List.singleton_append] at this
      rw [this]
      simp [optBits]
    · by_cases hu : optExpr letters b &&& optBit (c.toInt - 97).toNat = 0#32
      · rw [if_pos hu, List.filter_cons_of_pos (by simpa using (unk_iff hn hb h1 hcc).mp hu)]
        simp
      · rw [if_neg hu, List.filter_cons_of_neg (by rw [decide_eq_true_eq]; exact fun h => hu ((unk_iff hn hb h1 hcc).mpr h))]

theorem poWords_eq {m : Mem} {argv letters : List Nat} (hn : letters.Nodup) (hb : ∀ l ∈ letters, l < 32) (h1 : 1 ∉ letters) :
    ∀ (words : List (List Byte)) (ap argp : Nat) (opts : BitVec 32) (bad : List Byte), ArgsAt m argv ap words →
      (∀ c ∈ Spec.allOptChars words, BitChar c) →
      poWords m argv letters ap argp opts bad = .ok (if words.any Spec.isOptWord then ap + Spec.behindLast words else argp,
        opts ||| optBits (Spec.allOptChars words), bad ++ Spec.unknownOpts letters words) := by
  intro words
  induction words with
  | nil =>
    intro ap argp opts bad ha _
    rw [poWords, argsAt_nil ha, Res.ok_bind, if_pos rfl]
    simp [Spec.allOptChars, Spec.unknownOpts, optBits]
  | cons w ws ih =>
    intro ap argp opts bad ha hc
    obtain ⟨p, b1, b2, b3, b4⟩ := argsAt_cons ha
    rw [poWords, b1, Res.ok_bind, if_neg b2]
    have hws : ∀ c ∈ Spec.allOptChars ws, BitChar c := fun c h => hc c (by unfold Spec.allOptChars at *; rw [List.flatMap_cons]; exact List.mem_append_right _ h)
    cases w with
    | nil =>
      rw [isStr_nil] at b3
      rw [load_some b3, Res.ok_bind, if_neg (by decide), ih (ap + 1) argp opts bad b4 hws]
      by_cases ho : ws.any Spec.isOptWord = true
      · simp [Spec.behindLast, ho, Spec.allOptChars, Spec.unknownOpts, Spec.optChars, Spec.isOptWord]; omega
      · simp [Spec.behindLast, ho, Spec.allOptChars, Spec.unknownOpts, Spec.optChars, Spec.isOptWord]
    | cons c cs =>
      obtain ⟨c1, c2, c3⟩ := isStr_cons.mp b3
      rw [load_some c1, Res.ok_bind]
      by_cases hd : c = 45#8
      · subst hd
        rw [if_pos rfl, poChars_eq hn hb h1 cs 1 opts bad c3 (fun x hx => hc x (by unfold Spec.allOptChars; rw [List.flatMap_cons]; exact List.mem_append_left _ hx)),
          Res.ok_bind, ih (ap + 1) (ap + 1) _ _ b4 hws]
        have e : Spec.isOptWord (45#8 :: cs) = true := rfl
        have e2 : Spec.allOptChars ((45#8 :: cs) :: ws) = cs ++ Spec.allOptChars ws := rfl
        rw [e2]
        simp only [List.any_cons, e, Bool.true_or, if_true, Spec.unknownOpts, e2, List.filter_append, optBits_append, BitVec.or_assoc, List.append_assoc]
        congr 2
        have e3 : Spec.behindLast ((45#8 :: cs) :: ws) = if ws.any Spec.isOptWord then Spec.behindLast ws + 1 else 1 := rfl
        rw [e3]
        split <;> omega
      · rw [if_neg hd, ih (ap + 1) argp opts bad b4 hws]
        have e : Spec.isOptWord (c :: cs) = false := by simp [Spec.isOptWord, hd]
        have e0 : Spec.optChars (c :: cs) = [] := by
          unfold Spec.optChars
          split
          · next h => injection h with h _; exact absurd h hd
          · rfl
        have e2 : Spec.allOptChars ((c :: cs) :: ws) = Spec.allOptChars ws := by unfold Spec.allOptChars; rw [List.flatMap_cons, e0]; rfl
        rw [e2]
        simp only [List.any_cons, e, Bool.false_or, Spec.unknownOpts, e2]
        congr 2
        by_cases ho : ws.any Spec.isOptWord = true
        · have e3 : Spec.behindLast ((c :: cs) :: ws) = Spec.behindLast ws + 1 := by
            show (if ws.any Spec.isOptWord then Spec.behindLast ws + 1 else _) = _
            rw [if_pos ho]
          rw [if_pos ho, if_pos ho, e3]; omega
        · rw [if_neg ho, if_neg ho]

theorem optBits_get (cs : List Byte) (h : ∀ c ∈ cs, BitChar c) (l : Nat) : (optBits cs).getLsbD l = decide (∃ c ∈ cs, Spec.letterNo c = l) := by
  induction cs with
  | nil => simp [optBits]
  | cons c cs ih =>
    have hc := h c (List.mem_cons_self ..)
    have e := optBits_append [c] cs
    rw [List.singleton_append] at e
    have e1 : optBits [c] = optBit (c.toInt - 97).toNat := by simp [optBits]
    unfold BitChar Spec.letterNo at hc
    rw [e, BitVec.getLsbD_or, ih (fun x hx => h x (List.mem_cons_of_mem _ hx)), e1, optBit_get _ (by omega), ← Bool.decide_or]
    apply decide_eq_decide.mpr
    simp only [List.mem_cons, exists_eq_or_imp]
    unfold Spec.letterNo
    constructor
    · rintro (h | h)
      · left; omega
      · right; exact h
    · rintro (h | h)
      · left; omega
      · right; exact h

theorem getopt_iff (x : BitVec 32) (l : Nat) (hl : l < 32) : getoptBit x l = x.getLsbD l := by
  unfold getoptBit
  by_cases h : x &&& optBit l = 0#32
  · rw [(and_optBit x l hl).mp h]; simp [h]
  · have : x.getLsbD l ≠ false := fun e => h ((and_optBit x l hl).mpr e)
    simp only [ne_eq, h, not_false_eq_true, decide_true]
    cases hx : x.getLsbD l with
    | false => exact absurd hx this
    | true => rfl

/-! ### Words whose options are all letters behind a single dash, options without `b` -/

/-- Every argument vector whose option characters are letters, every list of distinct allowed letters without b, and every word of
options set before: the macro is defined; a letter tests as set exactly when it was set before or is given in some word that starts with
a dash; `unrecognized` is done for exactly the given letters that are not allowed, in their order; the result is the index behind the last word
that starts with a dash, which is the first regular argument when the options come first. -/
theorem C83_parse_partial (m : Mem) (argv letters : List Nat) (words : List (List Byte)) (opts : BitVec 32)
    (ha : ArgsAt m argv 1 words) (hc : ∀ c ∈ Spec.allOptChars words, 97 ≤ c.toNat ∧ c.toNat ≤ 122)
    (hn : letters.Nodup) (hl : ∀ l ∈ letters, l < 26) (hb : 1 ∉ letters) :
    ∃ opts' argp, parseopts m argv letters opts = .ok (argp, opts', Spec.unknownOpts letters words) ∧
      (∀ l < 26, getoptBit opts' l = true ↔ getoptBit opts l = true ∨ ∃ c ∈ Spec.allOptChars words, c.toNat = 97 + l) ∧
      argp = 1 + Spec.behindLast words := by
  have hbc : ∀ c ∈ Spec.allOptChars words, Spec.letterNo c = (c.toNat : Int) - 97 := by
    intro c h
    have := hc c h
    unfold Spec.letterNo
    rw [BitVec.toInt_eq_toNat_of_lt (by omega)]
  have hbit : ∀ c ∈ Spec.allOptChars words, BitChar c := by
    intro c h
    have h1 := hc c h
    have h2 := hbc c h
    unfold BitChar
    omega
  refine ⟨_, _, poWords_eq hn (fun l h => by have := hl l h; omega) hb words 1 1 opts [] ha hbit, ?_, ?_⟩
  · intro l h
    rw [getopt_iff _ _ (by omega), getopt_iff _ _ (by omega), BitVec.getLsbD_or, Bool.or_eq_true, optBits_get _ hbit, decide_eq_true_eq]
    constructor
    · rintro (h | ⟨c, h1, h2⟩)
      · exact .inl h
      · exact .inr ⟨c, h1, by have := hbc c h1; omega⟩
    · rintro (h | ⟨c, h1, h2⟩)
      · exact .inl h
      · exact .inr ⟨c, h1, by have := hbc c h1; omega⟩
  · split
    · rfl
    · next h =>
      have : ∀ ws : List (List Byte), ws.any Spec.isOptWord ≠ true → Spec.behindLast ws = 0 := by
        intro ws h
        cases ws with
        | nil => rfl
        | cons w ws =>
          rw [List.any_cons, ne_eq, Bool.or_eq_true, not_or] at h
          show (if ws.any Spec.isOptWord then Spec.behindLast ws + 1 else if Spec.isOptWord w then 1 else 0) = 0
          rw [if_neg h.2, if_neg h.1]
      rw [this words h]

/-- When the words with a dash come first, the index behind the last of them is the first regular argument. -/
theorem C83_regular_partial (m : Mem) (argv letters : List Nat) (words : List (List Byte)) (opts : BitVec 32)
    (ha : ArgsAt m argv 1 words) (hc : ∀ c ∈ Spec.allOptChars words, 97 ≤ c.toNat ∧ c.toNat ≤ 122)
    (hn : letters.Nodup) (hl : ∀ l ∈ letters, l < 26) (hb : 1 ∉ letters)
    (hfront : (words.dropWhile Spec.isOptWord).any Spec.isOptWord = false) :
    ∃ opts' bad, parseopts m argv letters opts = .ok (1 + Spec.firstRegular words, opts', bad) := by
  obtain ⟨o, a, h, _, h2⟩ := C83_parse_partial m argv letters words opts ha hc hn hl hb
  refine ⟨o, Spec.unknownOpts letters words, ?_⟩
  rw [h, h2]
  have key : ∀ ws : List (List Byte), (ws.dropWhile Spec.isOptWord).any Spec.isOptWord = false →
      Spec.behindLast ws = Spec.firstRegular ws ∧ (ws.any Spec.isOptWord = false → Spec.firstRegular ws = 0) := by
    intro ws
    induction ws with
    | nil => intro _; exact ⟨rfl, fun _ => rfl⟩
    | cons w ws ih =>
      intro hf
      have e : Spec.behindLast (w :: ws) = if ws.any Spec.isOptWord then Spec.behindLast ws + 1 else if Spec.isOptWord w then 1 else 0 := rfl
      by_cases hw : Spec.isOptWord w = true
      · rw [List.dropWhile_cons_of_pos hw] at hf
        obtain ⟨i1, i2⟩ := ih hf
        have e2 : Spec.firstRegular (w :: ws) = Spec.firstRegular ws + 1 := by
          unfold Spec.firstRegular; rw [List.takeWhile_cons_of_pos hw, List.length_cons]
        refine ⟨?_, fun hh => by rw [List.any_cons, hw] at hh; simp at hh⟩
        rw [e, e2]
        by_cases ho : ws.any Spec.isOptWord = true
        · rw [if_pos ho, i1]
        · rw [if_neg ho, if_pos hw, i2 (Bool.eq_false_iff.mpr ho)]
      · rw [List.dropWhile_cons_of_neg hw] at hf
        have e2 : Spec.firstRegular (w :: ws) = 0 := by
          unfold Spec.firstRegular; rw [List.takeWhile_cons_of_neg hw]; rfl
        have ho : ws.any Spec.isOptWord = false := by
          rw [List.any_cons, Bool.or_eq_false_iff] at hf; exact hf.2
        rw [e, e2, ho, if_neg (by simp), if_neg hw]
        exact ⟨rfl, fun _ => rfl⟩
  rw [(key words hfront).1]

/-- Setting an option makes it test as set and leaves the others alone. -/
theorem C83_setopt (opts : BitVec 32) (l k : Nat) (hl : l < 26) (hk : k < 26) :
    getoptBit (setoptBit opts l) k = (decide (k = l) || getoptBit opts k) := by
  rw [getopt_iff _ _ (by omega), getopt_iff _ _ (by omega)]
  unfold setoptBit
  rw [BitVec.getLsbD_or, optBit_get l (by omega), Bool.or_comm]

/-! ### Counterexamples -/

theorem optArgs_of {m : Mem} {argv : List Nat} {words : List (List Byte)} (ptrs : List Nat) (h : argv.drop 1 = ptrs ++ [0]) (h0 : ∀ p ∈ ptrs, p ≠ 0)
    (hf : List.Forall₂ (fun p w => m.IsStr p w) ptrs words) : ArgsAt m argv 1 words := ⟨ptrs, h, h0, hf⟩

/-- The full statement: every list of distinct allowed letters. -/
def C83_letters_full : Prop :=
  ∀ (m : Mem) (argv letters : List Nat) (words : List (List Byte)) (opts : BitVec 32), ArgsAt m argv 1 words →
    (∀ c ∈ Spec.allOptChars words, 97 ≤ c.toNat ∧ c.toNat ≤ 122) → letters.Nodup → (∀ l ∈ letters, l < 26) →
    ∃ opts' argp, parseopts m argv letters opts = .ok (argp, opts', Spec.unknownOpts letters words)

/-- `prog -b` with the options (b+h): the expression is evaluated where `b` is the position in the word, so b is reported as unrecognized. -/
theorem C83_b_refuted : ¬ C83_letters_full := by
  intro h
  let m := Mem.object 100 [45#8, 98#8, 0#8]
  have hs : m.IsStr 100 [45#8, 98#8] := by
    refine isStr_cons.mpr ⟨by decide, by decide, isStr_cons.mpr ⟨by decide, by decide, isStr_nil.mpr (by decide)⟩⟩
  obtain ⟨o, a, e⟩ := h m [50, 100, 0] [1, 7] [[45#8, 98#8]] 0
    (optArgs_of [100] rfl (by decide) (.cons hs .nil)) (by decide) (by decide) (by decide)
  unfold parseopts at e
  have c1 : poChars m [1, 7] 100 1 0 [] = .ok (2#32, [98#8]) := by
    rw [poChars, load_some (isStr_cons.mp (isStr_cons.mp hs).2.2).1, Res.ok_bind, if_neg (by decide), if_neg (by decide)]
    rw [poChars, load_some (show m (100 + (1 + 1)) = some 0#8 by decide), Res.ok_bind, if_pos rfl]
    decide
  rw [poWords, show argvAt [50, 100, 0] 1 = .ok 100 from rfl, Res.ok_bind, if_neg (by decide), load_some (isStr_cons.mp hs).1, Res.ok_bind, if_pos rfl,
    c1, Res.ok_bind, poWords, show argvAt [50, 100, 0] (1 + 1) = .ok 0 from rfl, Res.ok_bind, if_pos rfl] at e
  have e2 := congrArg (fun r : Res (Nat × BitVec 32 × List Byte) => match r with | .ok v => v.2.2 | _ => []) e
  have e3 : ([98#8] : List Byte) = Spec.unknownOpts [1, 7] [[45#8, 98#8]] := e2
  exact absurd e3 (by decide)

/-- The full statement: the macro is defined for every argument vector. -/
def C83_defined_full : Prop :=
  ∀ (m : Mem) (argv letters : List Nat) (words : List (List Byte)) (opts : BitVec 32), ArgsAt m argv 1 words → parseopts m argv letters opts ≠ .ub

/-- Every vector whose first word is a dash and a character below `a`, `-A`, `-1` or `--help`: a shift by a negative number. -/
theorem C83_shift_refuted (m : Mem) (argv letters : List Nat) (c : Byte) (cs : List Byte) (ws : List (List Byte)) (opts : BitVec 32)
    (hc : c.toInt < 97) (ha : ArgsAt m argv 1 ((45#8 :: c :: cs) :: ws)) : parseopts m argv letters opts = .ub := by
  obtain ⟨p, b1, b2, b3, _⟩ := argsAt_cons ha
  obtain ⟨c1, _, c3⟩ := isStr_cons.mp b3
  obtain ⟨d1, d2, _⟩ := isStr_cons.mp c3
  unfold parseopts
  rw [poWords, b1, Res.ok_bind, if_neg b2, load_some c1, Res.ok_bind, if_pos rfl, poChars, load_some d1, Res.ok_bind, if_neg d2, if_pos (by omega)]
  rfl

theorem C83_defined_refuted : ¬ C83_defined_full := by
  intro h
  let m := Mem.object 100 [45#8, 65#8, 0#8]
  have hs : m.IsStr 100 [45#8, 65#8] := by
    refine isStr_cons.mpr ⟨by decide, by decide, isStr_cons.mpr ⟨by decide, by decide, isStr_nil.mpr (by decide)⟩⟩
  have ha : ArgsAt m [50, 100, 0] 1 [[45#8, 65#8]] := optArgs_of [100] rfl (by decide) (.cons hs .nil)
  exact h m _ [] _ 0 ha (C83_shift_refuted m _ [] 65#8 [] [] 0 (by decide) ha)

/-- The full statement: the result is the index of the first regular argument. -/
def C83_regular_full : Prop :=
  ∀ (m : Mem) (argv letters : List Nat) (words : List (List Byte)) (opts : BitVec 32), ArgsAt m argv 1 words →
    (∀ c ∈ Spec.allOptChars words, 97 ≤ c.toNat ∧ c.toNat ≤ 122) →
    letters.Nodup → (∀ l ∈ letters, l < 26) → 1 ∉ letters →
    ∃ opts' bad, parseopts m argv letters opts = .ok (1 + Spec.firstRegular words, opts', bad)

theorem optDemo_args : ArgsAt (Mem.objects [(100, [120#8, 0#8]), (110, [45#8, 97#8, 0#8])]) [50, 100, 110, 0] 1 [[120#8], [45#8, 97#8]] := by
  refine optArgs_of [100, 110] rfl (by decide) (.cons ?_ (.cons ?_ .nil))
  · exact isStr_cons.mpr ⟨by decide, by decide, isStr_nil.mpr (by decide)⟩
  · exact isStr_cons.mpr ⟨by decide, by decide, isStr_cons.mpr ⟨by decide, by decide, isStr_nil.mpr (by decide)⟩⟩

/-- `prog x -a`: the result is behind `-a`, and x is lost. -/
theorem C83_regular_refuted : ¬ C83_regular_full := by
  intro h
  obtain ⟨o, b, e⟩ := h _ _ [0] _ 0 optDemo_args (by decide) (by decide) (by decide) (by decide)
  obtain ⟨o2, a2, e2, _, e3⟩ := C83_parse_partial _ _ [0] _ 0 optDemo_args (by decide) (by decide) (by decide) (by decide)
  rw [e2] at e
  injection e with e
  have e4 : a2 = 1 + Spec.firstRegular [[120#8], [45#8, 97#8]] := congrArg Prod.fst e
  rw [e3] at e4
  exact absurd e4 (by decide)

/-- A case: `prog -x x -a` with the options (a+h): x is reported, a and x are set. -/
example : Spec.unknownOpts [0, 7] [[45#8, 120#8], [120#8], [45#8, 97#8]] = [120#8] ∧ Spec.behindLast [[45#8, 120#8], [120#8], [45#8, 97#8]] = 3 ∧
    Spec.firstRegular [[45#8, 120#8], [120#8], [45#8, 97#8]] = 1 := by decide

example : ∃ opts' argp, parseopts (Mem.objects [(100, [120#8, 0#8]), (110, [45#8, 97#8, 0#8])]) [50, 100, 110, 0] [0, 7] 0 = .ok (argp, opts', []) ∧
    getoptBit opts' 0 = true ∧ getoptBit opts' 7 = false ∧ argp = 3 := by
  obtain ⟨o, a, e, h1, h2⟩ := C83_parse_partial _ _ [0, 7] _ 0 optDemo_args (by decide) (by decide) (by decide) (by decide)
  refine ⟨o, a, e, (h1 0 (by decide)).mpr (.inr ⟨97#8, by decide, by decide⟩), ?_, h2⟩
  apply Bool.eq_false_iff.mpr
  intro hh
  rcases (h1 7 (by decide)).mp hh with h | ⟨c, h3, h4⟩
  · exact absurd h (by decide)
  · have h3' : c ∈ [97#8] := h3
    rw [List.mem_singleton] at h3'
    subst h3'
    exact absurd h4 (by decide)

/-- C83: `prog -a x`: the first word that is no option is the second; and the bits of the letters c and d. -/
example : (∃ opts' bad, parseopts (Mem.objects [(100, [45#8, 97#8, 0#8]), (110, [120#8, 0#8])]) [50, 100, 110, 0] [0, 7] 0 = .ok (2, opts', bad)) ∧
    getoptBit (setoptBit 0#32 2) 2 = true ∧ getoptBit (setoptBit 0#32 2) 3 = false := by
  refine ⟨C83_regular_partial _ _ [0, 7] [[45#8, 97#8], [120#8]] 0 ?_ (by decide) (by decide) (by decide) (by decide) (by decide), ?_, ?_⟩
  · refine optArgs_of [100, 110] rfl (by decide) (.cons ?_ (.cons ?_ .nil))
    · exact isStr_cons.mpr ⟨by decide, by decide, isStr_cons.mpr ⟨by decide, by decide, isStr_nil.mpr (by decide)⟩⟩
    · exact isStr_cons.mpr ⟨by decide, by decide, isStr_nil.mpr (by decide)⟩
  · rw [C83_setopt 0#32 2 2 (by decide) (by decide)]; decide
  · rw [C83_setopt 0#32 2 3 (by decide) (by decide)]; decide

end Minilib

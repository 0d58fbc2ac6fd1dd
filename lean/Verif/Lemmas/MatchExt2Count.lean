import Verif.Lemmas.MatchExt2
/-
Lemmas for C107: counts in match_ext2.
-/

set_option autoImplicit false

namespace Minilib
open Mem Spec

/-- What is assumed of the part in braces: a class, not written with the characters which match_ext2 reads otherwise. -/
structure Part2 (c : CClass) (w : List Byte) : Prop where
  spells : SpellsC c w
  head : w.headD 0#8 ∉ [38#8, 44#8, 123#8, 125#8, 40#8, 41#8]
  esc : w ∉ [[92#8, 110#8], [92#8, 116#8], [92#8, 120#8]]
  close : 125#8 ∉ w

/-- The length in the struct is 0. -/
def Ext2St.zero (q : Ext2St) : Ext2St := { q with st := q.st.map fun s => { s with len := 0 } }

/-- After `k` rounds of a loop in braces. -/
def Ext2St.rounds (q : Ext2St) : Nat → Ext2St
  | 0 => q
  | k + 1 => (((q.zero.say .closing).say .loop)).rounds k

section
variable {m : Mem} {pm : Bool} {pc : Option (Nat → Nat → Int)}

theorem zero_zero (q : Ext2St) : q.zero.zero = q.zero := by
  unfold Ext2St.zero
  simp [Option.map_map, Function.comp_def]

theorem zero_say (q : Ext2St) (t : Trace) : (q.say t).zero = q.zero.say t := rfl

theorem ext2_loop {text re : Nat} {q : Ext2St} : ext2 m pm pc text re q = ext2Loop m pm pc text re 0 q.zero := by rw [ext2]; rfl

theorem ext2_zero {text re : Nat} {q : Ext2St} : ext2 m pm pc text re q.zero = ext2 m pm pc text re q := by
  rw [ext2_loop, ext2_loop, zero_zero]

theorem ext2_escape_letter {text rp n : Nat} {b : Byte} {q : Ext2St} {x : Byte} {re : List Byte} {v : Bool}
    (hr : m.IsStr rp (92#8 :: x :: re)) (he : escape2 false x b = some v) :
    ext2Step m pm pc text rp false n q b 92#8 = if v = true then ext2Loop m pm pc (text + 1) (rp + 2) n q else .ok (0, q) := by
  obtain ⟨_, _, g3⟩ := isStr_cons.1 hr
  obtain ⟨g1, _, _⟩ := isStr_cons.1 g3
  rw [ext2Step]
  repeat rw [if_neg (by decide)]
  rw [if_pos rfl, load_some g1]
  simp only [Res.ok_bind]
  rw [he]
  cases v <;> rfl

theorem word2_small (b : Byte) (h : b.toNat < 127) :
    ((decide (32 ≤ b.toInt) && decide (b.toInt ≤ 126)) || decide (160 ≤ b.toInt)) = CClass.word.has b ∧
    (decide (b.toInt < 32) || (decide (126 < b.toInt) && decide (b.toInt < 160))) = CClass.nonword.has b := by
  have := word_small b h false
  simpa using this

theorem ext2_step_class {text rp n : Nat} {b : Byte} {re w : List Byte} {q : Ext2St} {c : CClass} (hp : Part2 c w) (hb0 : b ≠ 0#8)
    (hr : m.IsStr rp (w ++ re)) (hok : okChar b c) :
    ext2Step m pm pc text rp false n q b ((w ++ re).headD 0#8) =
      if c.has b = true then ext2Loop m pm pc (text + 1) (rp + w.length) n q else .ok (0, q) := by
  obtain ⟨hw, hx, hesc, -⟩ := hp
  cases hw with
  | @plain x hx0 hxs =>
    simp only [special, List.mem_cons, List.not_mem_nil, or_false, not_or] at hxs
    obtain ⟨x1, x2, x3, x4, x5, x6, x7, x8, x9, x10⟩ := hxs
    simp only [List.headD_cons, List.mem_cons, List.not_mem_nil, or_false, not_or] at hx
    simp only [List.singleton_append, List.headD_cons, List.length_singleton]
    rw [ext2Step, if_neg hx.2.2.2.2.2, if_neg hx.2.2.2.1, if_neg hx.2.2.1, if_neg x2, if_neg x5, if_neg x3, if_neg hx.2.2.2.2.1, if_neg x4, if_neg x10,
      if_neg hx.1, if_neg x6, if_neg x7, if_neg x8, if_neg x9, if_neg hx0]
    simp only [CClass.has]
    by_cases h : x = b <;> simp [h] <;> rfl
  | @esc x hx0 hxl =>
    simp only [escLetters, List.mem_cons, List.not_mem_nil, or_false, not_or] at hxl
    obtain ⟨x1, x2, x3, x4, x5, x6⟩ := hxl
    simp only [List.mem_cons, List.cons.injEq, true_and, and_true, List.not_mem_nil, or_false, not_or] at hesc
    simp only [List.cons_append, List.nil_append, List.headD_cons, List.length_cons, List.length_nil]
    obtain ⟨_, _, g3⟩ := isStr_cons.1 hr
    obtain ⟨g1, _, _⟩ := isStr_cons.1 g3
    rw [ext2Step]
    repeat rw [if_neg (by decide)]
    rw [if_pos rfl, load_some g1]
    simp only [Res.ok_bind]
    have he : escape2 false x b = none := by simp [escape2, x1, x2, x3, x4, x5, x6, hesc]
    rw [he]
    simp only
    rw [if_neg hx0]
    simp only [CClass.has]
    by_cases h : x = b <;> simp [h] <;> rfl
  | any =>
    simp only [List.singleton_append, List.headD_cons, List.length_singleton]
    rw [ext2Step]
    repeat rw [if_neg (by decide)]
    rw [if_pos rfl]
    simp [CClass.has]
  | @set l h0 h93 =>
    simp only [List.cons_append, List.append_assoc, List.nil_append, List.headD_cons, List.length_cons, List.length_append, List.length_nil] at hr ⊢
    obtain ⟨_, _, g3⟩ := isStr_cons.1 hr
    obtain ⟨f1, f2⟩ := classFind_eq (t := b) g3 h93 hok
    rw [ext2Step]
    repeat rw [if_neg (by decide)]
    rw [if_pos rfl]
    by_cases hm : b ∈ l
    · obtain ⟨u, v, e1, e2⟩ := f1 hm
      rw [e2]
      simp only [Res.ok_bind]
      subst e1
      rw [List.append_assoc] at g3
      have g4 := isStr_tail g3
      rw [classEnd_eq (l := b :: v) (rest := re) g4 (fun h => h93 (by simp only [List.mem_append]; exact Or.inr h))]
      simp only [Res.ok_bind]
      have g5 := isStr_tail (w := b :: v) g4
      rw [load_some (isStr_cons.1 g5).1]
      simp only [Res.ok_bind]
      rw [if_neg (by decide), if_neg (by decide), if_pos (by simp [CClass.has])]
      congr 1
      simp only [List.length_append, List.length_cons]
      omega
    · rw [f2 hm]
      simp only [Res.ok_bind]
      rw [if_neg (by decide), if_neg (by simp [CClass.has, hm])]
      rfl
  | digit => exact ext2_escape_letter hr (by simp [escape2, isdigit_ext, CClass.has])
  | nondigit => exact ext2_escape_letter hr (by simp [escape2, isdigit_ext, CClass.has])
  | space => exact ext2_escape_letter hr (by simp [escape2, isspace_ext, CClass.has])
  | nonspace => exact ext2_escape_letter hr (by simp [escape2, isspace_ext, CClass.has])
  | word =>
    refine ext2_escape_letter hr ?_
    rw [← (word2_small b hok).1]
    simp [escape2]
  | nonword =>
    refine ext2_escape_letter hr ?_
    rw [← (word2_small b hok).2]
    simp [escape2]

theorem part2_head {c : CClass} {w re : List Byte} (hp : Part2 c w) :
    (w ++ re).headD 0#8 ∉ [0#8, 33#8, 44#8, 35#8, 36#8, 42#8, 43#8] := by
  obtain ⟨hw, hx, _, _⟩ := hp
  cases hw with
  | @plain x hx0 hxs =>
    simp only [special, List.mem_cons, List.not_mem_nil, or_false, not_or] at hxs
    simp only [List.headD_cons, List.mem_cons, List.not_mem_nil, or_false, not_or] at hx
    simp only [List.singleton_append, List.headD_cons, List.mem_cons, List.not_mem_nil, or_false, not_or]
    exact ⟨hx0, hxs.1, hx.2.1, hxs.2.2.2.1, hxs.2.2.2.2.2.2.2.2.2, hxs.2.2.2.2.2.2.2.1, hxs.2.2.2.2.2.2.1⟩
  | _ => simp

theorem ext2_at_end {text rp : Nat} {re : List Byte} {q : Ext2St} (hr : m.IsStr rp re)
    (h : re.headD 0#8 ∉ [0#8, 44#8, 35#8, 36#8, 42#8]) : ext2End m text rp q = .ok (0, q) := by
  simp only [List.mem_cons, List.not_mem_nil, or_false, not_or] at h
  unfold ext2End
  rw [isStr_first hr]
  simp only [Res.ok_bind]
  rw [if_neg h.2.1, isStr_first hr]
  simp only [Res.ok_bind]
  rw [if_neg (fun x => x.elim h.2.2.1 h.2.2.2.1), if_neg h.1, if_neg h.2.2.2.2]
  rfl

theorem ext2Loop_plain {text rp n : Nat} {b : Byte} {s re : List Byte} {q : Ext2St} (ht : m.IsStr text (b :: s)) (hr : m.IsStr rp re)
    (h1 : re.headD 0#8 ≠ 33#8) (h2 : re.headD 0#8 ≠ 44#8) :
    ext2Loop m pm pc text rp n q = ext2Step m pm pc text rp false n q b (re.headD 0#8) := by
  rw [ext2Loop, load_some (isStr_cons.1 ht).1]
  simp only [Res.ok_bind]
  rw [if_neg (isStr_cons.1 ht).2.1, isStr_first hr]
  simp only [Res.ok_bind]
  rw [if_neg h1, if_neg h2]

theorem ext2Loop_end {text rp n : Nat} {re : List Byte} {q : Ext2St} (ht : m.IsStr text []) (hr : m.IsStr rp re)
    (h : re.headD 0#8 ∉ [0#8, 44#8, 35#8, 36#8, 42#8]) : ext2Loop m pm pc text rp n q = .ok (0, q) := by
  rw [ext2Loop, isStr_first ht]
  simp only [Res.ok_bind, List.headD_nil, if_true]
  exact ext2_at_end hr h

/-- One round: the part in braces takes a character, when another one follows. -/
theorem ext2_round {text rp : Nat} {s re w : List Byte} {q : Ext2St} {c : CClass} (hp : Part2 c w) (ht : m.IsStr text s)
    (hr : m.IsStr rp (w ++ 125#8 :: re)) (hok : ∀ b ∈ s, okChar b c) :
    ext2 m pm pc text rp q = .ok (if 1 < s.length ∧ c.has (s.headD 0#8) = true then (text + 1, q.zero.say .closing) else (0, q.zero)) := by
  have hh := part2_head (re := 125#8 :: re) hp
  rw [ext2_loop]
  cases s with
  | nil =>
    rw [if_neg (by simp), ext2Loop_end ht hr]
    intro h
    apply hh
    revert h
    generalize (w ++ 125#8 :: re).headD 0#8 = x
    simp only [List.mem_cons, List.not_mem_nil, or_false]
    rintro (h | h | h | h | h) <;> simp [h]
  | cons b s =>
    simp only [List.mem_cons, List.not_mem_nil, or_false, not_or] at hh
    rw [ext2Loop_plain ht hr hh.2.1 hh.2.2.1, ext2_step_class hp (isStr_cons.1 ht).2.1 hr (hok b (by simp))]
    have ht2 := (isStr_cons.1 ht).2.2
    have hr2 := isStr_tail hr
    by_cases h : c.has b = true
    · rw [if_pos h]
      cases s with
      | nil =>
        rw [if_neg (fun x => absurd x.1 (by simp)), ext2Loop_end ht2 hr2 (by simp)]
      | cons d s =>
        rw [if_pos ⟨by simp, h⟩, ext2Loop_plain ht2 hr2 (by simp) (by simp), List.headD_cons, ext2Step, if_neg (by decide), if_pos rfl]
        rfl
    · rw [if_neg h, if_neg (fun x => h x.2)]

theorem ext2Skip_eq {e : Byte} : ∀ {w re : List Byte} {rp : Nat}, m.IsStr rp (w ++ e :: re) → e ∉ w →
    ext2Skip m e rp = .ok (some (rp + w.length)) := by
  intro w
  induction w with
  | nil =>
    intro re rp hr _
    rw [ext2Skip, isStr_first hr]
    simp
  | cons a w ih =>
    intro re rp hr he
    simp only [List.mem_cons, not_or] at he
    have h := isStr_cons.1 hr
    rw [ext2Skip, isStr_first hr]
    simp only [List.cons_append, List.headD_cons, Res.ok_bind]
    rw [if_neg (fun x => he.1 x.symm), if_neg h.2.1, ih h.2.2 he.2]
    congr 2
    simp only [List.length_cons]
    omega

theorem ext2Behind_eq {ret rp : Nat} {re w : List Byte} {q : Ext2St} {c : CClass} (hp : Part2 c w) (hr : m.IsStr rp (w ++ 125#8 :: re)) :
    ext2Behind m pm pc ret rp q = ext2 m pm pc ret (rp + w.length + 1) q := by
  rw [ext2Behind, ext2Skip_eq hr hp.close]
  rfl

theorem rounds_zero (k : Nat) : ∀ q : Ext2St, (q.rounds k).zero = q.zero.rounds k := by
  induction k with
  | zero => intro q; rfl
  | succ k ih =>
    intro q
    show (((q.zero.say .closing).say .loop).rounds k).zero = ((q.zero.zero.say .closing).say .loop).rounds k
    rw [ih, zero_say, zero_say]

/-- A number of rounds. -/
theorem ext2Repeat_count {rp : Nat} {re w : List Byte} {c : CClass} (hp : Part2 c w) (hr : m.IsStr rp (w ++ 125#8 :: re)) :
    ∀ {d : Nat} {text : Nat} {s : List Byte} {q : Ext2St}, d ≤ 2147483647 → m.IsStr text s → s ≠ [] → (∀ b ∈ s, okChar b c) →
      ∃ k, k ≤ d ∧ ext2Repeat m pm pc text rp d q =
        if d < s.length ∧ (s.take d).all c.has = true then ext2 m pm pc (text + d) (rp + w.length + 1) (q.rounds d)
        else .ok (0, (q.rounds k).zero) := by
  intro d
  induction d with
  | zero =>
    intro text s q _ ht hs hok
    refine ⟨0, Nat.le_refl _, ?_⟩
    rw [if_pos ⟨List.length_pos_iff.2 hs, by simp⟩, ext2Repeat, if_pos (by rfl), ext2Behind_eq hp hr]
    rfl
  | succ d ih =>
    intro text s q hd ht hs hok
    rw [ext2Repeat, if_neg (by omega), ext2_round hp ht hr hok]
    simp only [Res.ok_bind]
    by_cases h : 1 < s.length ∧ c.has (s.headD 0#8) = true
    · rw [if_pos h]
      simp only
      have h0 : text + 1 ≠ 0 := by omega
      rw [if_neg h0]
      cases s with
      | nil => simp at h
      | cons b s =>
        simp only [List.length_cons, List.headD_cons] at h
        have hck : ckInt (((d + 1 : Nat) : Int) - 1) = .ok (d : Int) := by
          rw [show ((d + 1 : Nat) : Int) - 1 = d by omega]
          unfold ckInt
          rw [if_pos (by omega)]
        rw [hck]
        simp only [Res.ok_bind]
        obtain ⟨k, hk, e⟩ := ih (text := text + 1) (s := s) (q := (q.zero.say .closing).say .loop) (by omega) (isStr_cons.1 ht).2.2
          (by intro e; rw [e] at h; simp at h) (fun b hb => hok b (by simp [hb]))
        refine ⟨k + 1, by omega, ?_⟩
        rw [e]
        have hiff : (d < s.length ∧ (s.take d).all c.has = true) ↔ (d + 1 < (b :: s).length ∧ ((b :: s).take (d + 1)).all c.has = true) := by
          simp [h.2]
        by_cases hh : d < s.length ∧ (s.take d).all c.has = true
        · rw [if_pos hh, if_pos (hiff.1 hh)]
          rw [show text + 1 + d = text + (d + 1) by omega]
          rfl
        · rw [if_neg hh, if_neg (fun x => hh (hiff.2 x))]
          rfl
    · refine ⟨0, by omega, ?_⟩
      rw [if_neg h]
      simp only [if_true]
      rw [if_pos (by omega), if_neg]
      · rfl
      · intro x
        apply h
        cases s with
        | nil => simp at x
        | cons b s =>
          simp only [List.length_cons, List.take_succ_cons, List.all_cons, Bool.and_eq_true] at x
          exact ⟨by simp only [List.length_cons]; omega, x.2.1⟩

/-- How many characters the rounds without a number take. -/
def greedy (c : CClass) (s : List Byte) : Nat := (s.dropLast.takeWhile c.has).length

/-- Rounds without a number. -/
theorem ext2Repeat_greedy {rp : Nat} {re w : List Byte} {c : CClass} (hp : Part2 c w) (hr : m.IsStr rp (w ++ 125#8 :: re)) :
    ∀ {s : List Byte} {text : Nat} {n : Int} {q : Ext2St}, n < 0 → -2147483648 ≤ n - s.length → m.IsStr text s → (∀ b ∈ s, okChar b c) →
      ext2Repeat m pm pc text rp n q = ext2 m pm pc (text + greedy c s) (rp + w.length + 1) (q.rounds (greedy c s)) := by
  intro s
  induction s with
  | nil =>
    intro text n q hn hl ht hok
    rw [ext2Repeat, if_neg (by omega), ext2_round hp ht hr hok, if_neg (by simp)]
    simp only [Res.ok_bind, if_true]
    rw [if_neg (by omega), ext2Behind_eq hp hr, ext2_zero]
    rfl
  | cons b s ih =>
    intro text n q hn hl ht hok
    rw [ext2Repeat, if_neg (by omega), ext2_round hp ht hr hok]
    simp only [Res.ok_bind]
    by_cases h : 1 < (b :: s).length ∧ c.has ((b :: s).headD 0#8) = true
    · rw [if_pos h]
      simp only
      rw [if_neg (by omega)]
      simp only [List.length_cons, List.headD_cons] at h hl
      have hck : ckInt (n - 1) = .ok (n - 1) := by
        unfold ckInt
        rw [if_pos (by omega)]
      rw [hck]
      simp only [Res.ok_bind]
      rw [ih (by omega) (by omega) (isStr_cons.1 ht).2.2 (fun b hb => hok b (by simp [hb]))]
      have hg : greedy c (b :: s) = greedy c s + 1 := by
        unfold greedy
        cases s with
        | nil => simp at h
        | cons d s => rw [List.dropLast_cons_cons, List.takeWhile_cons_of_pos h.2]; rfl
      rw [hg, show text + 1 + greedy c s = text + (greedy c s + 1) by omega]
      rfl
    · rw [if_neg h]
      simp only [if_true]
      rw [if_neg (by omega), ext2Behind_eq hp hr, ext2_zero]
      have hg : greedy c (b :: s) = 0 := by
        unfold greedy
        cases s with
        | nil => rfl
        | cons d s =>
          rw [List.dropLast_cons_cons, List.takeWhile_cons_of_neg]
          · rfl
          · intro x; exact h ⟨by simp, x⟩
      rw [hg]
      rfl

/-- What the rounds change: nothing but the output, once the engine begins anew. -/
theorem rounds_same (k : Nat) : ∀ q : Ext2St, ∃ out, (q.rounds k).zero = { q.zero with out := out } := by
  induction k with
  | zero => intro q; exact ⟨_, rfl⟩
  | succ k ih =>
    intro q
    obtain ⟨out, h⟩ := ih ((q.zero.say .closing).say .loop)
    refine ⟨out, ?_⟩
    show (((q.zero.say .closing).say .loop).rounds k).zero = _
    rw [h, zero_say, zero_say, zero_zero]
    rfl

theorem ext2_rounds {text rp k : Nat} {q : Ext2St} : ∃ out, ext2 m pm pc text rp (q.rounds k) = ext2 m pm pc text rp { q with out := out } := by
  obtain ⟨out, h⟩ := rounds_same k q
  exact ⟨out, by rw [← ext2_zero, h, ← ext2_zero (q := { q with out := out })]; rfl⟩

theorem matchExt2_plain {text rp : Nat} {re : List Byte} {q : Ext2St} (hr : m.IsStr rp re) (h1 : re.headD 0#8 ≠ 64#8) (h2 : re.take 2 ≠ [42#8, 64#8]) :
    matchExt2 m pm pc text rp q = (do let r ← ext2 m pm pc text rp q; pure (if r.1 ≠ 0 then 1 else 0, r.2)) := by
  unfold matchExt2
  rw [isStr_first hr]
  simp only [Res.ok_bind]
  by_cases h : re.headD 0#8 = 42#8
  · cases re with
    | nil => simp at h
    | cons a re =>
      simp only [List.headD_cons] at h
      subst h
      simp only [List.headD_cons, if_true]
      rw [isStr_first (isStr_cons.1 hr).2.2]
      simp only [Res.ok_bind]
      rw [if_neg]
      rintro (h | h)
      · cases re with
        | nil => simp at h
        | cons d re => exact h2 (by simpa using h.2)
      · exact absurd h (by decide)
  · rw [if_neg h]
    simp only [Res.pure_eq, Res.ok_bind]
    rw [if_neg]
    rintro (h' | h')
    · exact h h'.1
    · exact h1 h'

end

end Minilib

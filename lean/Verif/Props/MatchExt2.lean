import Verif.Lemmas.MatchExt2Count
import Verif.Props.MatchExt
/-
C107: `match_ext2`, the matching engine with brackets and repetitions.
-/

set_option autoImplicit false

namespace Minilib
open Mem Spec

/-! ### as `match_ext` -/

/-- C107 (partial: none of the characters { } ( ) @ # $, no ',' at the end or in front of a last '*', no negated set, '*', '+', '%', ',' or "\W", none of the escapes
"\n", "\t", "\x", a callback for '&' that does not answer with a position behind the text): `match_ext2` gives the answer of `match_ext`, fills in the struct alike and makes the same calls; so it returns and reads nothing behind the ends. -/
theorem C107_agree_partial {m : Mem} {text rp : Nat} {s re : List Byte} (ht : m.IsStr text s) (h0 : 0 < text) (hr : m.IsStr rp re)
    (hchars : ∀ b ∈ re, b ∉ [123#8, 125#8, 40#8, 41#8, 64#8, 35#8, 36#8]) (hsep : ∀ u v, re = u ++ 44#8 :: v → v ∉ [[], [42#8]])
    (hneg : ∀ u v, re = u ++ 33#8 :: v → v.headD 0#8 ∉ [91#8, 42#8, 43#8, 37#8, 44#8] ∧ v.take 2 ≠ [92#8, 87#8])
    (hesc : ∀ u v, re = u ++ 92#8 :: v → v.headD 0#8 ∉ [110#8, 116#8, 120#8])
    (pm : Bool) (pc : Option (Nat → Nat → Int)) (hpc : ∀ f, pc = some f → ∀ k p (l : List Byte), m.IsStr p l → l ≠ [] → f k p = 0 ∨ f k p = -1 ∨ (0 ≤ f k p ∧ f k p < l.length))
    (q : Ext2St) :
    ∃ r q', matchExt2 m pm pc text rp q = .ok (r, q') ∧ (r = 0 ∨ r = 1) ∧ matchExt m pm pc text rp q.st q.calls = .ok (r, q'.st, q'.calls) := by
  have hc : Core2 re := ⟨hchars, hneg, hesc, hsep⟩
  obtain ⟨e, q', h1, h2⟩ := ext2Loop_alike hpc (pm := pm) (pc := pc) (n := 0) (q := q.zero) (re.length + 1) (Nat.lt_succ_self _) hc ht h0 hr
  rw [matchExt2_plain hr hc.head.2.2.2.2.1, ext2_loop, h1]
  · refine ⟨if e = 0 then 0 else 1, q', ?_, ?_, by rw [matchExt]; exact h2⟩
    · simp only [Res.ok_bind]
      by_cases h : e = 0 <;> simp [h]
    · split <;> simp
  · intro h
    have : (64#8 : Byte) ∈ re := List.mem_of_mem_take (i := 2) (by rw [h]; simp)
    exact absurd (by simp) (hchars _ this)

/-- C107 (partial: as above): what is accepted is described by the pattern; the '%' are reported with their numbers, positions and lengths, the last one
first, and the struct tells the first one; without a match nothing is reported. -/
theorem C107_sound_partial {m : Mem} {text rp : Nat} {s re : List Byte} {toks : List ETok} (hp : EPattern toks re) (ht : m.IsStr text s) (h0 : 0 < text)
    (hr : m.IsStr rp re) (hchars : ∀ b ∈ re, b ∉ [123#8, 125#8, 40#8, 41#8, 64#8, 35#8, 36#8]) (hsep : ∀ u v, re = u ++ 44#8 :: v → v ∉ [[], [42#8]])
    (hneg : ∀ u v, re = u ++ 33#8 :: v → v.headD 0#8 ∉ [91#8, 42#8, 43#8, 37#8, 44#8] ∧ v.take 2 ≠ [92#8, 87#8])
    (hesc : ∀ u v, re = u ++ 92#8 :: v → v.headD 0#8 ∉ [110#8, 116#8, 120#8])
    (hok : ∀ t ∈ toks, extOkFor s t) (hlen : s.length < 2147483648) (pm : Bool) (pc : Option (Nat → Nat → Int))
    (hpc : ∀ f, pc = some f → ∀ k p (l : List Byte), m.IsStr p l → l ≠ [] → f k p = 0 ∨ f k p = -1 ∨ (0 ≤ f k p ∧ f k p < l.length)) (q : Ext2St) :
    ∃ r q' cs, matchExt2 m pm pc text rp q = .ok (r, q') ∧ q'.calls = q.calls ++ cs ∧
      ((r = 0 ∧ q'.st = q.st.map (fun x => { x with len := 0 }) ∧ cs = []) ∨
       (r = 1 ∧ ∃ caps, Captures text toks s caps ∧
          cs = (if pm then caps.reverse.map fun c => (c.1, c.2.1, (c.2.2 : Int)) else []) ∧
          q'.st = match caps with
            | [] => q.st.map fun x => { x with len := 0 }
            | c :: _ => q.st.map fun _ => ⟨c.2.1, (c.2.2 : Int)⟩)) := by
  obtain ⟨r, q', h1, _, h2⟩ := C107_agree_partial ht h0 hr hchars hsep hneg hesc pm pc hpc q
  obtain ⟨r', st', cs, h3, h4⟩ := C77_sound_partial hp ht hr hok hlen pm pc q.st q.calls
  rw [h2] at h3
  simp only [Res.ok.injEq, Prod.mk.injEq] at h3
  obtain ⟨rfl, rfl, e⟩ := h3
  exact ⟨r, q', cs, h1, e, h4⟩

/-- C107 (partial: moreover the conditions of C77): exactly the texts that the pattern describes are accepted. -/
theorem C107_exact_partial {m : Mem} {text rp : Nat} {s re : List Byte} {toks : List ETok} (hp : EPlain toks re) (ht : m.IsStr text s) (h0 : 0 < text)
    (hr : m.IsStr rp re) (hchars : ∀ b ∈ re, b ∉ [123#8, 125#8, 40#8, 41#8, 64#8, 35#8, 36#8]) (hsep : ∀ u v, re = u ++ 44#8 :: v → v ∉ [[], [42#8]])
    (hneg : ∀ u v, re = u ++ 33#8 :: v → v.headD 0#8 ∉ [91#8, 42#8, 43#8, 37#8, 44#8] ∧ v.take 2 ≠ [92#8, 87#8])
    (hesc : ∀ u v, re = u ++ 92#8 :: v → v.headD 0#8 ∉ [110#8, 116#8, 120#8])
    (hok : ∀ t ∈ toks, extOkFor s t) (hwf : WF (toks.map ETok.plain)) (hlast : ∀ n c, toks.getLast? = some (.rep n c) → n ≠ 1)
    (pm : Bool) (pc : Option (Nat → Nat → Int)) (hpc : ∀ f, pc = some f → ∀ k p (l : List Byte), m.IsStr p l → l ≠ [] → f k p = 0 ∨ f k p = -1 ∨ (0 ≤ f k p ∧ f k p < l.length))
    (q : Ext2St) :
    ∃ r q', matchExt2 m pm pc text rp q = .ok (r, q') ∧ (r = 0 ∨ r = 1) ∧ (r = 1 ↔ ∃ caps, Captures text toks s caps) := by
  obtain ⟨r, q', h1, h2, h3⟩ := C107_agree_partial ht h0 hr hchars hsep hneg hesc pm pc hpc q
  obtain ⟨r', st', cs, h4, _, h5⟩ := C77_exact_partial hp ht hr hok hwf hlast pm pc q.st q.calls
  rw [h3] at h4
  simp only [Res.ok.injEq, Prod.mk.injEq] at h4
  obtain ⟨rfl, _⟩ := h4
  exact ⟨r, q', h1, h2, h5⟩

/-- "a,&c" on the text "abc", where the callback ends the match at the 'b': the hypotheses are met. -/
example : let m := objects [(16, [97#8, 98#8, 99#8, 0#8]), (32, [97#8, 44#8, 38#8, 99#8, 0#8])]
    let f : Nat → Nat → Int := fun _ p => if p = 17 then -1 else 0
    ∃ r q', matchExt2 m true (some f) 16 32 ⟨none, [], []⟩ = .ok (r, q') ∧ (r = 0 ∨ r = 1) ∧ matchExt m true (some f) 16 32 none [] = .ok (r, q'.st, q'.calls) := by
  intro m f
  refine C107_agree_partial (s := [97#8, 98#8, 99#8]) (re := [97#8, 44#8, 38#8, 99#8]) ⟨by decide, by decide⟩ (by decide) ⟨by decide, by decide⟩ (by decide)
    ?_ ?_ ?_ true (some f) ?_ ⟨none, [], []⟩
  · intro u v h
    match u, h with
    | [_], h => simp at h; rw [← h.2]; decide
    | [], h | [_, _], h | [_, _, _], h => simp at h
    | _ :: _ :: _ :: _ :: u, h => simp at h
  · intro u v h
    have : (33#8 : Byte) ∈ [97#8, 44#8, 38#8, 99#8] := h ▸ (by simp)
    exact absurd this (by decide)
  · intro u v h
    have : (92#8 : Byte) ∈ [97#8, 44#8, 38#8, 99#8] := h ▸ (by simp)
    exact absurd this (by decide)
  · intro g hg k p l _ _
    cases hg
    by_cases h : p = 17
    · exact .inr (.inl (if_pos h))
    · exact .inl (if_neg h)

/-- "%1=*" on the text "ab=c": accepted, and the part in front of the '=' is reported. -/
example : let m := objects [(16, [97#8, 98#8, 61#8, 99#8, 0#8]), (32, [37#8, 49#8, 61#8, 42#8, 0#8])]
    ∃ q', matchExt2 m true none 16 32 ⟨none, [], []⟩ = .ok (1, q') ∧ ∃ k, q'.calls = [(1, 16, k)] := by
  intro m
  have ht : m.IsStr 16 [97#8, 98#8, 61#8, 99#8] := ⟨by decide, by decide⟩
  have hr : m.IsStr 32 [37#8, 49#8, 61#8, 42#8] := ⟨by decide, by decide⟩
  have hp : EPlain [.rep 1 (some 1), .one false (.lit 61#8), .rep 0 none] [37#8, 49#8, 61#8, 42#8] :=
    .cons (w := [37#8, 49#8]) (.number (k := 1) (by decide)) (by decide) (.cons (w := [61#8]) (.one (.plain (by decide) (by decide)) (by decide)) (by decide)
      (.cons (w := [42#8]) .star (by decide) .nil))
  have hok : ∀ t ∈ [ETok.rep 1 (some 1), .one false (.lit 61#8), .rep 0 none], extOkFor [97#8, 98#8, 61#8, 99#8] t := by
    intro t ht
    simp only [List.mem_cons, List.not_mem_nil, or_false] at ht
    rcases ht with rfl | rfl | rfl <;> trivial
  have hmem : ∀ {x : Byte} {u v : List Byte}, ([37#8, 49#8, 61#8, 42#8] : List Byte) = u ++ x :: v → x ∈ ([37#8, 49#8, 61#8, 42#8] : List Byte) :=
    fun e => by rw [e]; simp
  have hneg : ∀ u v, ([37#8, 49#8, 61#8, 42#8] : List Byte) = u ++ 33#8 :: v → v.headD 0#8 ∉ [91#8, 42#8, 43#8, 37#8, 44#8] ∧ v.take 2 ≠ [92#8, 87#8] :=
    fun u v e => absurd (hmem e) (by decide)
  have hesc : ∀ u v, ([37#8, 49#8, 61#8, 42#8] : List Byte) = u ++ 92#8 :: v → v.headD 0#8 ∉ [110#8, 116#8, 120#8] :=
    fun u v e => absurd (hmem e) (by decide)
  have hsep : ∀ u v, ([37#8, 49#8, 61#8, 42#8] : List Byte) = u ++ 44#8 :: v → v ∉ [[], [42#8]] := fun u v e => absurd (hmem e) (by decide)
  have hpc : ∀ f, (none : Option (Nat → Nat → Int)) = some f → ∀ k p (l : List Byte), m.IsStr p l → l ≠ [] →
    f k p = 0 ∨ f k p = -1 ∨ (0 ≤ f k p ∧ f k p < l.length) := fun f h => by cases h
  obtain ⟨r, q', h1, _, h2⟩ := C107_exact_partial hp ht (by decide) hr (by decide) hsep hneg hesc hok ⟨Or.inr (by decide), Or.inl rfl, trivial⟩
    (by intro n c h; simp at h; omega) true none hpc ⟨none, [], []⟩
  have hr1 : r = 1 := h2.2 ⟨_, [97#8, 98#8], _, _, rfl, by decide, ⟨61#8, _, rfl, by decide, [99#8], [], rfl, by decide, rfl, rfl⟩, rfl⟩
  subst hr1
  obtain ⟨r, q2, cs, g1, g2, g3⟩ := C107_sound_partial (ePlain_ePattern hp) ht (by decide) hr (by decide) hsep hneg hesc hok (by decide) true none hpc ⟨none, [], []⟩
  rw [h1] at g1
  simp only [Res.ok.injEq, Prod.mk.injEq] at g1
  obtain ⟨rfl, rfl⟩ := g1
  refine ⟨q', h1, ?_⟩
  rcases g3 with ⟨h, _⟩ | ⟨_, caps, hc, e1, _⟩
  · omega
  obtain ⟨u, v, c1, a1, a2, ⟨b, t, b1, b2, u', v', d1, d2, ⟨d3, d4⟩⟩, a3⟩ := hc
  subst d4
  refine ⟨(u.length : Int), ?_⟩
  rw [g2, e1, a3]
  rfl

/-! ### repetitions -/

theorem brace_first {m : Mem} {pm : Bool} {pc : Option (Nat → Nat → Int)} {text rp : Nat} {s re : List Byte} {q : Ext2St} (ht : m.IsStr text s)
    (hr : m.IsStr rp (123#8 :: re)) :
    ext2 m pm pc text rp q = if s = [] then .ok (0, q.zero) else ext2Brace m pm pc text (rp + 1) q.zero := by
  rw [ext2_loop]
  cases s with
  | nil => rw [if_pos rfl, ext2Loop_end ht hr (by simp)]
  | cons b s =>
    rw [if_neg (by simp), ext2Loop_plain ht hr (by simp) (by simp), List.headD_cons, ext2Step]
    repeat rw [if_neg (by decide)]
    rw [if_pos rfl]

/-- C107 (partial: a number of one digit, a class of characters which is not written with a '}' and not with "\n", "\t", "\x", no '@' behind the braces):
"{dX}" in front of a pattern takes exactly d characters of the class, and the pattern is matched with what is left; but something must be left.  Nothing else
changes but what is printed. -/
theorem C107_count_partial {m : Mem} {text rp d : Nat} {s w re : List Byte} {c : CClass} (hw : SpellsC c w)
    (hx : w.headD 0#8 ∉ [38#8, 44#8, 123#8, 125#8, 40#8, 41#8]) (hesc : w ∉ [[92#8, 110#8], [92#8, 116#8], [92#8, 120#8]]) (hclose : 125#8 ∉ w)
    (hdig : isDigitChar (w.headD 0#8) = false) (hd : d ≤ 9) (h64 : re.headD 0#8 ≠ 64#8) (h42 : re.take 2 ≠ [42#8, 64#8])
    (ht : m.IsStr text s) (hr : m.IsStr rp (123#8 :: BitVec.ofNat 8 (48 + d) :: (w ++ 125#8 :: re))) (hok : ∀ b ∈ s, okChar b c)
    (pm : Bool) (pc : Option (Nat → Nat → Int)) (q : Ext2St) :
    ∃ out, matchExt2 m pm pc text rp q =
      if d < s.length ∧ (s.take d).all c.has = true then matchExt2 m pm pc (text + d) (rp + 2 + w.length + 1) { q with out := out }
      else .ok (0, { q with st := q.st.map fun x => { x with len := 0 }, out := out }) := by
  have hp : Part2 c w := ⟨hw, hx, hesc, hclose⟩
  have hr1 := (isStr_cons.1 hr).2.2
  have hr2 : m.IsStr (rp + 2) (w ++ 125#8 :: re) := (isStr_cons.1 hr1).2.2
  have hr3 := (isStr_cons.1 (isStr_tail hr2)).2.2
  have hend : ∀ t q', matchExt2 m pm pc t (rp + 2 + w.length + 1) q' = _ := fun t q' => matchExt2_plain hr3 h64 h42
  simp only [hend]
  rw [matchExt2_plain hr (by simp) (by simp), brace_first ht hr]
  by_cases hs : s = []
  · subst hs
    exact ⟨q.out, by rw [if_pos rfl, if_neg (by simp)]; rfl⟩
  rw [if_neg hs, ext2Brace, isStr_first hr1]
  simp only [Res.ok_bind, List.headD_cons]
  have hdc := digit_char hd
  have hplus : BitVec.ofNat 8 (48 + d) ≠ 43#8 ∧ BitVec.ofNat 8 (48 + d) ≠ 42#8 := by
    refine ⟨fun h => ?_, fun h => ?_⟩ <;> · have := congrArg BitVec.toNat h; simp at this; omega
  rw [if_neg hplus.1, if_neg hplus.2]
  have hhead : (w ++ 125#8 :: re).headD 0#8 = w.headD 0#8 := by
    cases w with
    | nil => cases hw
    | cons a w => rfl
  have hnum : ext2Number m (rp + 1) 0 = .ok (rp + 2, (d : Int)) := by
    rw [ext2Number, isStr_first hr1]
    simp only [Res.ok_bind, List.headD_cons]
    rw [if_pos hdc.1, hdc.2]
    have e1 : ckInt (0 * 10) = .ok 0 := by decide
    have e2 : ∀ x : Int, x = d → ckInt x = .ok d := by
      rintro _ rfl
      unfold ckInt
      rw [if_pos (by omega)]
    rw [e1]
    simp only [Res.ok_bind]
    rw [e2 _ (by omega)]
    simp only [Res.ok_bind]
    rw [e2 _ (by omega)]
    simp only [Res.ok_bind]
    rw [ext2Number, isStr_first hr2]
    simp only [Res.ok_bind]
    rw [hhead, if_neg]
    · rfl
    · rw [isdigit_ext]
      unfold isDigitChar at hdig
      rw [hdig]
      simp
  rw [hnum]
  simp only [Res.ok_bind]
  obtain ⟨k, _, e⟩ := ext2Repeat_count (pm := pm) (pc := pc) hp hr2 (d := d) (q := q.zero) (by omega) ht hs hok
  rw [e]
  by_cases h : d < s.length ∧ (s.take d).all c.has = true
  · rw [if_pos h]
    obtain ⟨out, ho⟩ := ext2_rounds (m := m) (pm := pm) (pc := pc) (text := text + d) (rp := rp + 2 + w.length + 1) (k := d) (q := q.zero)
    refine ⟨out, ?_⟩
    rw [if_pos h, ho, ← ext2_zero (q := { q with out := out })]
    rfl
  · rw [if_neg h]
    obtain ⟨out, ho⟩ := rounds_same k q.zero
    refine ⟨out, ?_⟩
    rw [if_neg h, ho, zero_zero]
    rfl

/-- C107 (partial: as above): "{*X}" takes as many characters of the class as there are, but leaves one, then the pattern behind is matched; it takes nothing from an
empty text and does not match it. -/
theorem C107_star_partial {m : Mem} {text rp : Nat} {s w re : List Byte} {c : CClass} (hw : SpellsC c w)
    (hx : w.headD 0#8 ∉ [38#8, 44#8, 123#8, 125#8, 40#8, 41#8]) (hesc : w ∉ [[92#8, 110#8], [92#8, 116#8], [92#8, 120#8]]) (hclose : 125#8 ∉ w)
    (h64 : re.headD 0#8 ≠ 64#8) (h42 : re.take 2 ≠ [42#8, 64#8]) (hlen : s.length < 2147483648)
    (ht : m.IsStr text s) (hr : m.IsStr rp (123#8 :: 42#8 :: (w ++ 125#8 :: re))) (hok : ∀ b ∈ s, okChar b c)
    (pm : Bool) (pc : Option (Nat → Nat → Int)) (q : Ext2St) :
    ∃ out, matchExt2 m pm pc text rp q =
      if s = [] then .ok (0, { q with st := q.st.map fun x => { x with len := 0 }, out := out })
      else matchExt2 m pm pc (text + (s.dropLast.takeWhile c.has).length) (rp + 2 + w.length + 1) { q with out := out } := by
  have hp : Part2 c w := ⟨hw, hx, hesc, hclose⟩
  have hr1 := (isStr_cons.1 hr).2.2
  have hr2 : m.IsStr (rp + 2) (w ++ 125#8 :: re) := (isStr_cons.1 hr1).2.2
  have hr3 := (isStr_cons.1 (isStr_tail hr2)).2.2
  have hend : ∀ t q', matchExt2 m pm pc t (rp + 2 + w.length + 1) q' = _ := fun t q' => matchExt2_plain hr3 h64 h42
  simp only [hend]
  rw [matchExt2_plain hr (by simp) (by simp), brace_first ht hr]
  by_cases hs : s = []
  · subst hs
    exact ⟨q.out, by rw [if_pos rfl, if_pos rfl]; rfl⟩
  rw [if_neg hs, ext2Brace, isStr_first hr1]
  simp only [Res.ok_bind, List.headD_cons]
  rw [if_neg (by decide), if_pos trivial, ext2Repeat_greedy hp hr2 (by omega) (by omega) ht hok]
  obtain ⟨out, ho⟩ := ext2_rounds (m := m) (pm := pm) (pc := pc) (text := text + greedy c s) (rp := rp + 2 + w.length + 1) (k := greedy c s) (q := q.zero)
  refine ⟨out, ?_⟩
  rw [if_neg hs]
  show (do let r ← ext2 m pm pc (text + greedy c s) (rp + 2 + w.length + 1) (q.zero.rounds (greedy c s)); pure (if r.1 ≠ 0 then 1 else 0, r.2)) = _
  rw [ho, ← ext2_zero (q := { q with out := out })]
  rfl

/-- C107 (partial: as above): "{+X}" likewise, but there must be a character of the class, and another character. -/
theorem C107_plus_partial {m : Mem} {text rp : Nat} {s w re : List Byte} {c : CClass} (hw : SpellsC c w)
    (hx : w.headD 0#8 ∉ [38#8, 44#8, 123#8, 125#8, 40#8, 41#8]) (hesc : w ∉ [[92#8, 110#8], [92#8, 116#8], [92#8, 120#8]]) (hclose : 125#8 ∉ w)
    (h64 : re.headD 0#8 ≠ 64#8) (h42 : re.take 2 ≠ [42#8, 64#8]) (hlen : s.length < 2147483648)
    (ht : m.IsStr text s) (hr : m.IsStr rp (123#8 :: 43#8 :: (w ++ 125#8 :: re))) (hok : ∀ b ∈ s, okChar b c)
    (pm : Bool) (pc : Option (Nat → Nat → Int)) (q : Ext2St) :
    ∃ out, matchExt2 m pm pc text rp q =
      if 1 < s.length ∧ c.has (s.headD 0#8) = true then
        matchExt2 m pm pc (text + (s.dropLast.takeWhile c.has).length) (rp + 2 + w.length + 1) { q with out := out }
      else .ok (0, { q with st := q.st.map fun x => { x with len := 0 }, out := out }) := by
  have hp : Part2 c w := ⟨hw, hx, hesc, hclose⟩
  have hr1 := (isStr_cons.1 hr).2.2
  have hr2 : m.IsStr (rp + 2) (w ++ 125#8 :: re) := (isStr_cons.1 hr1).2.2
  have hr3 := (isStr_cons.1 (isStr_tail hr2)).2.2
  have hend : ∀ t q', matchExt2 m pm pc t (rp + 2 + w.length + 1) q' = _ := fun t q' => matchExt2_plain hr3 h64 h42
  simp only [hend]
  rw [matchExt2_plain hr (by simp) (by simp), brace_first ht hr]
  cases s with
  | nil => exact ⟨q.out, by rw [if_pos rfl, if_neg (fun x => absurd x.1 (by simp))]; rfl⟩
  | cons b s =>
    rw [if_neg (by simp), ext2Brace, isStr_first hr1]
    simp only [Res.ok_bind]
    rw [if_pos (by rfl), ext2_round hp ht hr2 hok]
    simp only [Res.ok_bind]
    by_cases h : 1 < (b :: s).length ∧ c.has ((b :: s).headD 0#8) = true
    · simp only [List.length_cons] at hlen
      rw [if_pos h]
      simp only
      rw [if_neg (by omega), ext2Repeat_greedy hp hr2 (by omega) (by omega) (isStr_cons.1 ht).2.2 (fun x hx => hok x (by simp [hx]))]
      have hg : ((b :: s).dropLast.takeWhile c.has).length = greedy c s + 1 := by
        unfold greedy
        cases s with
        | nil => exact absurd h.1 (by simp)
        | cons d s => rw [List.dropLast_cons_cons, List.takeWhile_cons_of_pos (a := b) h.2]; rfl
      obtain ⟨out, ho⟩ := ext2_rounds (m := m) (pm := pm) (pc := pc) (text := text + 1 + greedy c s) (rp := rp + 2 + w.length + 1) (k := greedy c s)
        (q := q.zero.zero.say .closing)
      refine ⟨out, ?_⟩
      rw [if_pos h, hg, show text + (greedy c s + 1) = text + 1 + greedy c s by omega]
      show (do let r ← ext2 m pm pc (text + 1 + greedy c s) (rp + 2 + w.length + 1) ((q.zero.zero.say .closing).rounds (greedy c s)); pure (if r.1 ≠ 0 then 1 else 0, r.2)) = _
      rw [ho, ← ext2_zero (q := { q with out := out })]
      show (do let r ← ext2 m pm pc (text + 1 + greedy c s) (rp + 2 + w.length + 1) { q.zero.zero with out := out }; pure (if r.1 ≠ 0 then 1 else 0, r.2)) = _
      rw [zero_zero]
      rfl
    · refine ⟨q.out, ?_⟩
      rw [if_neg h, if_neg h]
      simp only [if_true, Res.ok_bind, zero_zero]
      rfl

/-- "{*\d}a?" on "12a3": two digits are taken, then "a?" is matched with "a3". -/
example : let m := objects [(16, [49#8, 50#8, 97#8, 51#8, 0#8]), (32, [123#8, 42#8, 92#8, 100#8, 125#8, 97#8, 63#8, 0#8])]
    ∃ out, matchExt2 m false none 16 32 ⟨none, [], []⟩ = matchExt2 m false none 18 37 ⟨none, [], out⟩ := by
  intro m
  have ht : m.IsStr 16 [49#8, 50#8, 97#8, 51#8] := ⟨by decide, by decide⟩
  have hr : m.IsStr 32 [123#8, 42#8, 92#8, 100#8, 125#8, 97#8, 63#8] := ⟨by decide, by decide⟩
  exact C107_star_partial (c := .digit) (w := [92#8, 100#8]) (re := [97#8, 63#8]) .digit (by decide) (by decide) (by decide) (by decide) (by decide) (by decide)
    ht hr (by intros; trivial) false none ⟨none, [], []⟩

/-! ### brackets -/

/-- C107 (partial: one class of characters in the brackets, no '@' behind them): "(X)" in front of a pattern takes one character of the class and the pattern is
matched with what is left; but something must be left. -/
theorem C107_bracket_partial {m : Mem} {text rp : Nat} {s w re : List Byte} {c : CClass} (hw : SpellsC c w)
    (hx : w.headD 0#8 ∉ [38#8, 44#8, 123#8, 125#8, 40#8, 41#8]) (hesc : w ∉ [[92#8, 110#8], [92#8, 116#8], [92#8, 120#8]]) (hclose : 125#8 ∉ w) (hround : 41#8 ∉ w)
    (h64 : re.headD 0#8 ≠ 64#8) (h42 : re.take 2 ≠ [42#8, 64#8])
    (ht : m.IsStr text s) (h0 : 0 < text) (hr : m.IsStr rp (40#8 :: (w ++ 41#8 :: re))) (hok : ∀ b ∈ s, okChar b c)
    (pm : Bool) (pc : Option (Nat → Nat → Int)) (q : Ext2St) :
    matchExt2 m pm pc text rp q =
      if 1 < s.length ∧ c.has (s.headD 0#8) = true then do
        let r ← matchExt2 m pm pc (text + 1) (rp + 1 + w.length + 1) q
        pure (r.1, if r.1 = 0 then r.2 else r.2.say .bracket)
      else .ok (0, { q with st := q.st.map fun x => { x with len := 0 } }) := by
  have hp : Part2 c w := ⟨hw, hx, hesc, hclose⟩
  have hr1 := (isStr_cons.1 hr).2.2
  have hr2 := isStr_tail hr1
  have hr3 := (isStr_cons.1 hr2).2.2
  have hh := part2_head (re := 41#8 :: re) hp
  rw [matchExt2_plain hr (by simp) (by simp), matchExt2_plain hr3 h64 h42, ext2_loop]
  cases s with
  | nil => rw [if_neg (fun x => absurd x.1 (by simp)), ext2Loop_end ht hr (by simp)]; rfl
  | cons b s =>
    have ht2 := (isStr_cons.1 ht).2.2
    simp only [List.mem_cons, List.not_mem_nil, or_false, not_or] at hh
    rw [ext2Loop_plain ht hr (by simp) (by simp), List.headD_cons (a := 40#8), ext2Step]
    rw [if_neg (by decide), if_neg (by decide), if_neg (by decide), if_neg (by decide), if_neg (by decide), if_neg (by decide), if_pos rfl,
      ext2Skip_eq hr1 hround]
    simp only [Res.ok_bind]
    rw [ext2_loop, zero_zero, ext2Loop_plain ht hr1 hh.2.1 hh.2.2.1, ext2_step_class hp (isStr_cons.1 ht).2.1 hr1 (hok b (by simp))]
    by_cases h : c.has b = true
    · rw [if_pos h]
      cases s with
      | nil =>
        rw [if_neg (fun x => absurd x.1 (by simp)), ext2Loop_end ht2 hr2 (by simp)]
        rfl
      | cons d s =>
        rw [if_pos ⟨by simp, h⟩, ext2Loop_plain ht2 hr2 (by simp) (by simp), List.headD_cons, ext2Step, if_pos rfl, ext2_zero]
        cases ext2 m pm pc (text + 1) (rp + 1 + w.length + 1) q with
        | ok v =>
          simp only [Res.ok_bind]
          by_cases hv : v.1 = 0
          · simp [hv]
          · simp [hv]
        | ub => rfl
        | div => rfl
    · rw [if_neg h, if_neg (fun x => h x.2)]
      rfl

/-- What is behind "(X)" may be nothing. -/
def C107_bracket_full : Prop := ∀ (m : Mem) (text rp : Nat) (s : List Byte) (a : Byte), a ∉ special → a ∉ [38#8, 44#8, 123#8, 125#8, 40#8, 41#8] → a ≠ 0#8 →
  0 < text → m.IsStr text s → m.IsStr rp [40#8, a, 41#8] → ∃ q, matchExt2 m false none text rp ⟨none, [], []⟩ = .ok (if s = [a] then 1 else 0, q)

/-- "(a)" does not accept "a". -/
theorem C107_bracket_refuted : ¬ C107_bracket_full := by
  intro h
  let m := objects [(16, [97#8, 0#8]), (32, [40#8, 97#8, 41#8, 0#8])]
  have ht : m.IsStr 16 [97#8] := ⟨by decide, by decide⟩
  have hr : m.IsStr 32 [40#8, 97#8, 41#8] := ⟨by decide, by decide⟩
  obtain ⟨q, h1⟩ := h m 16 32 _ 97#8 (by decide) (by decide) (by decide) (by decide) ht hr
  have h2 := C107_bracket_partial (c := .lit 97#8) (w := [97#8]) (re := []) (.plain (by decide) (by decide)) (by decide) (by decide) (by decide) (by decide)
    (by decide) (by decide) ht (by decide) hr (by intros; trivial) false none ⟨none, [], []⟩
  rw [h2, if_neg (by decide)] at h1
  simp at h1

/-- "(a)b" on "ab" is accepted; "{2a}b" on "aab" goes on with "b", and "{+a}b" too. -/
example : let m := objects [(16, [97#8, 97#8, 98#8, 0#8]), (32, [40#8, 97#8, 41#8, 98#8, 0#8]), (48, [123#8, 50#8, 97#8, 125#8, 98#8, 0#8]),
      (64, [123#8, 43#8, 97#8, 125#8, 98#8, 0#8])]
    (∃ q, matchExt2 m false none 17 32 ⟨none, [], []⟩ = .ok (1, q)) ∧
    (∃ out, matchExt2 m false none 16 48 ⟨none, [], []⟩ = matchExt2 m false none 18 52 ⟨none, [], out⟩) ∧
    (∃ out, matchExt2 m false none 16 64 ⟨none, [], []⟩ = matchExt2 m false none 18 68 ⟨none, [], out⟩) := by
  intro m
  have ht : m.IsStr 16 [97#8, 97#8, 98#8] := ⟨by decide, by decide⟩
  have ht1 : m.IsStr 17 [97#8, 98#8] := ⟨by decide, by decide⟩
  have ht2 : m.IsStr 18 [98#8] := ⟨by decide, by decide⟩
  have hb : m.IsStr 35 [98#8] := ⟨by decide, by decide⟩
  refine ⟨?_, ?_, ?_⟩
  · have h := C107_bracket_partial (m := m) (text := 17) (rp := 32) (c := .lit 97#8) (w := [97#8]) (re := [98#8]) (.plain (by decide) (by decide)) (by decide) (by decide) (by decide)
      (by decide) (by decide) (by decide) ht1 (by decide) ⟨by decide, by decide⟩ (by intros; trivial) false none ⟨none, [], []⟩
    have e : matchExt2 m false none 18 35 ⟨none, [], []⟩ = .ok (1, ⟨none, [], []⟩) := by
      rw [matchExt2_plain hb (by decide) (by decide), ext2_loop, ext2Loop_plain ht2 hb (by decide) (by decide), List.headD_cons, ext2Step]
      repeat rw [if_neg (by decide)]
      rw [ext2Loop, isStr_first (isStr_cons.1 ht2).2.2]
      rfl
    rw [if_pos (by decide)] at h
    exact ⟨_, h.trans (by show (do let r ← matchExt2 m false none 18 35 ⟨none, [], []⟩; _) = _; rw [e]; rfl)⟩
  · obtain ⟨out, h⟩ := C107_count_partial (m := m) (text := 16) (rp := 48) (d := 2) (c := .lit 97#8) (w := [97#8]) (re := [98#8]) (.plain (by decide) (by decide)) (by decide)
      (by decide) (by decide) (by decide) (by decide) (by decide) (by decide) ht ⟨by decide, by decide⟩ (by intros; trivial) false none ⟨none, [], []⟩
    rw [if_pos (by decide)] at h
    exact ⟨out, h⟩
  · obtain ⟨out, h⟩ := C107_plus_partial (m := m) (text := 16) (rp := 64) (c := .lit 97#8) (w := [97#8]) (re := [98#8]) (.plain (by decide) (by decide)) (by decide)
      (by decide) (by decide) (by decide) (by decide) (by decide) ht ⟨by decide, by decide⟩ (by intros; trivial) false none ⟨none, [], []⟩
    rw [if_pos (by decide)] at h
    exact ⟨out, h⟩

/-! ### where it fails -/

/-- The documentation: "{dX}" matches d times X. -/
def C107_count_full : Prop := ∀ (m : Mem) (text rp d : Nat) (s : List Byte) (a : Byte), a ∉ special → a ∉ [38#8, 44#8, 123#8, 125#8, 40#8, 41#8] →
  isDigitChar a = false → a ≠ 0#8 → 0 < text → 1 ≤ d → d ≤ 9 → m.IsStr text s → m.IsStr rp [123#8, BitVec.ofNat 8 (48 + d), a, 125#8] →
    ∃ q, matchExt2 m false none text rp ⟨none, [], []⟩ = .ok (if s = List.replicate d a then 1 else 0, q)

/-- "{2a}" does not accept "aa": the '}' at the end of the text is not a match. -/
theorem C107_count_refuted : ¬ C107_count_full := by
  intro h
  let m := objects [(16, [97#8, 97#8, 0#8]), (32, [123#8, 50#8, 97#8, 125#8, 0#8])]
  have ht : m.IsStr 16 [97#8, 97#8] := ⟨by decide, by decide⟩
  have hr : m.IsStr 32 [123#8, 50#8, 97#8, 125#8] := ⟨by decide, by decide⟩
  obtain ⟨q, h1⟩ := h m 16 32 2 _ 97#8 (by decide) (by decide) (by decide) (by decide) (by decide) (by decide) (by decide) ht hr
  obtain ⟨out, h2⟩ := C107_count_partial (c := .lit 97#8) (w := [97#8]) (d := 2) (re := []) (.plain (by decide) (by decide)) (by decide) (by decide) (by decide)
    (by decide) (by decide) (by decide) (by decide) ht hr (by intros; trivial) false none ⟨none, [], []⟩
  rw [h2, if_neg (by decide)] at h1
  simp at h1

/-- A matching engine answers, and prints nothing. -/
def C107_silent_full : Prop := ∀ (m : Mem) (text rp : Nat) (s re : List Byte) (toks : List ETok), EPlain toks re → 0 < text → m.IsStr text s → m.IsStr rp re →
  ∀ (pm : Bool) (pc : Option (Nat → Nat → Int)) (q : Ext2St) r q', matchExt2 m pm pc text rp q = .ok (r, q') → q'.out = q.out

/-- The pattern "*" with any text that is not empty: the engine prints a line. -/
theorem C107_silent_refuted : ¬ C107_silent_full := by
  intro h
  let m := objects [(16, [97#8, 0#8]), (32, [42#8, 0#8])]
  have ht : m.IsStr 16 [97#8] := ⟨by decide, by decide⟩
  have hr : m.IsStr 32 [42#8] := ⟨by decide, by decide⟩
  have e : matchExt2 m false none 16 32 ⟨none, [], []⟩ = .ok (1, ⟨none, [], [.star]⟩) := by
    rw [matchExt2_plain hr (by decide) (by decide), ext2_loop, ext2Loop_plain ht hr (by decide) (by decide), List.headD_cons, ext2Step]
    repeat rw [if_neg (by decide)]
    rw [if_pos rfl, ext2Star, isStr_first (isStr_cons.1 hr).2.2]
    rfl
  have := h m 16 32 _ _ [.rep 0 none] (.cons (w := [42#8]) .star (by decide) .nil) (by decide) ht hr false none ⟨none, [], []⟩ _ _ e
  exact absurd this (by decide)

/-- The documentation: '#' is a space or the end of the text; and callbacks are called when the pattern has matched. -/
def C107_gap_full : Prop := ∀ (m : Mem) (text rp : Nat) (s re : List Byte) (toks : List ETok), EPlain toks re → 0 < text → m.IsStr text s → m.IsStr rp re →
  (∀ t ∈ toks, extOkFor s t) → ∃ r q', matchExt2 m true none text rp ⟨none, [], []⟩ = .ok (r, q') ∧ ((∃ caps, Captures text toks s caps) → r = 1) ∧
    (r = 0 → q'.calls = [])

/-- "%#" on "ab" is not accepted, although 'ab' is followed by the end of the text; nevertheless "ab" is reported. -/
theorem C107_gap_refuted : ¬ C107_gap_full := by
  intro h
  let m := objects [(16, [97#8, 98#8, 0#8]), (32, [37#8, 35#8, 0#8])]
  have ht : m.IsStr 16 [97#8, 98#8] := ⟨by decide, by decide⟩
  have ht1 : m.IsStr 17 [98#8] := ⟨by decide, by decide⟩
  have ht2 : m.IsStr 18 [] := ⟨by decide, by decide⟩
  have hr : m.IsStr 32 [37#8, 35#8] := ⟨by decide, by decide⟩
  have hr1 : m.IsStr 33 [35#8] := ⟨by decide, by decide⟩
  have e1 : ext2 m true none 17 33 ⟨none, [], []⟩ = .ok (0, ⟨none, [], []⟩) := by
    rw [ext2_loop, ext2Loop_plain ht1 hr1 (by decide) (by decide), List.headD_cons, ext2Step]
    repeat rw [if_neg (by decide)]
    rw [if_pos rfl, if_neg (by decide)]
    rfl
  have e : matchExt2 m true none 16 32 ⟨none, [], []⟩ = .ok (0, ⟨none, [(0, 16, 2)], []⟩) := by
    rw [matchExt2_plain hr (by decide) (by decide), ext2_loop, ext2Loop_plain ht hr (by decide) (by decide), List.headD_cons, ext2Step]
    repeat rw [if_neg (by decide)]
    rw [if_pos rfl, extDigit_none hr (by decide)]
    simp only [Res.ok_bind]
    rw [isStr_first ht1]
    simp only [Res.ok_bind, List.headD_cons]
    rw [if_neg (by decide), ext2Star, isStr_first hr1]
    simp only [Res.ok_bind, List.headD_cons]
    rw [if_neg (by decide), ext2StarLoop]
    show (do
      let r ← (do
        let r ← ext2 m true none 17 33 ⟨none, [], []⟩
        _) ; _) = _
    rw [e1]
    simp only [Res.ok_bind]
    rw [if_neg (by decide), isStr_first ht2]
    simp only [Res.ok_bind, List.headD_nil, if_true]
    rw [isStr_first hr1]
    simp only [Res.ok_bind, List.headD_cons]
    rfl
  obtain ⟨r, q', h1, h2, h3⟩ := h m 16 32 _ _ [.rep 1 (some 0), .gap] (.cons (w := [37#8]) .percent (by decide) (.cons (w := [35#8]) .gap (by decide) .nil)) (by decide) ht hr
    (by intro t ht; simp only [List.mem_cons, List.not_mem_nil, or_false] at ht; rcases ht with rfl | rfl <;> trivial)
  rw [e] at h1
  simp only [Res.ok.injEq, Prod.mk.injEq] at h1
  obtain ⟨rfl, rfl⟩ := h1
  exact absurd (h3 rfl) (by decide)

/-- What is accepted is described by the pattern. -/
def C107_sound_full : Prop := ∀ (m : Mem) (text rp : Nat) (s re : List Byte) (toks : List ETok), EPlain toks re → 0 < text → m.IsStr text s → m.IsStr rp re →
  (∀ b ∈ s, b.toNat < 127 ∧ b ≠ 93#8 ∧ b ≠ 36#8) → ∀ r q', matchExt2 m false none text rp ⟨none, [], []⟩ = .ok (r, q') → r = 1 → ∃ caps, Captures text toks s caps

/-- At the end of the text a '#' in the pattern ends the match: "#b" accepts the empty text. -/
theorem C107_sound_refuted : ¬ C107_sound_full := by
  intro h
  let m := objects [(16, [0#8]), (32, [35#8, 98#8, 0#8])]
  have ht : m.IsStr 16 [] := ⟨by decide, by decide⟩
  have hr : m.IsStr 32 [35#8, 98#8] := ⟨by decide, by decide⟩
  have e : matchExt2 m false none 16 32 ⟨none, [], []⟩ = .ok (1, ⟨none, [], [.textEnd]⟩) := by
    rw [matchExt2_plain hr (by decide) (by decide), ext2_loop, ext2Loop, isStr_first ht]
    rfl
  obtain ⟨caps, hc⟩ := h m 16 32 _ _ [.gap, .one false (.lit 98#8)]
    (.cons (w := [35#8]) .gap (by decide) (.cons (w := [98#8]) (.one (.plain (by decide) (by decide)) (by decide)) (by decide) .nil)) (by decide) ht hr
    (by simp) _ _ e rfl
  rcases hc with ⟨b, t, h1, _⟩ | ⟨_, b, t, h1, _⟩ <;> cases h1

/-- A negated set ends the match with success: "![a]b" accepts "cx" (the set may not be followed by anything that has to match). -/
theorem C107_negated_refuted {m : Mem} {text rp : Nat} {b : Byte} {s l re : List Byte} (ht : m.IsStr text (b :: s)) (h0 : 0 < text)
    (hr : m.IsStr rp (33#8 :: 91#8 :: (l ++ 93#8 :: re))) (hb : b ∉ l) (hb2 : b ≠ 93#8) (hl : 93#8 ∉ l) (pm : Bool) (pc : Option (Nat → Nat → Int)) (q : Ext2St) :
    ∃ q', matchExt2 m pm pc text rp q = .ok (1, q') := by
  have hr1 := (isStr_cons.1 hr).2.2
  have hr2 := (isStr_cons.1 hr1).2.2
  refine ⟨q.zero, ?_⟩
  rw [matchExt2_plain hr (by simp) (by simp), ext2_loop, ext2Loop, load_some (isStr_cons.1 ht).1]
  simp only [Res.ok_bind]
  rw [if_neg (isStr_cons.1 ht).2.1, isStr_first hr]
  simp only [Res.ok_bind, List.headD_cons, if_true]
  rw [isStr_first hr1]
  simp only [Res.ok_bind, List.headD_cons]
  rw [ext2Step]
  repeat rw [if_neg (by decide)]
  rw [if_pos rfl, (classFind_eq (t := b) hr2 hl hb2).2 hb]
  simp only [Res.ok_bind, if_true, Res.pure_eq]
  rw [if_pos (by omega)]

/-- Such a pattern: "![a]b" and the text "cx". -/
example : let m := objects [(16, [99#8, 120#8, 0#8]), (32, [33#8, 91#8, 97#8, 93#8, 98#8, 0#8])]
    ∃ q', matchExt2 m false none 16 32 ⟨none, [], []⟩ = .ok (1, q') := by
  intro m
  exact C107_negated_refuted (b := 99#8) (s := [120#8]) (l := [97#8]) (re := [98#8]) ⟨by decide, by decide⟩ (by decide) ⟨by decide, by decide⟩ (by decide) (by decide)
    (by decide) false none ⟨none, [], []⟩

end Minilib

import Verif.Lemmas.MatchExt
/-
C77: `match_ext`, the matching engine with callbacks, counts and numbers.
-/

set_option autoImplicit false

namespace Minilib
open Mem Spec

/-! ### as `match` -/

/-- C77, patterns without the additional syntax (none of & , { } @, no digit behind a '%'): `match_ext` gives the same answer as `match`
and the same struct, whatever the callbacks are; so it returns and reads nothing behind the ends, and C52 holds for it. -/
theorem C77_agree {m : Mem} {text rp : Nat} {s re : List Byte} (ht : m.IsStr text s) (hr : m.IsStr rp re)
    (hchars : ∀ b ∈ re, b ∉ [38#8, 44#8, 123#8, 125#8, 64#8]) (hdigit : ∀ u v, re = u ++ 37#8 :: v → isDigitChar (v.headD 0#8) = false)
    (pm : Bool) (pc : Option (Nat → Nat → Int)) (st : Option TextMatch) (calls : List MCall) :
    ∃ r st' cs, matchExt m pm pc text rp st calls = .ok (r, st', cs) ∧ «match» m text rp st = .ok (r, st') := by
  have hc : Core re := ⟨hchars, hdigit⟩
  obtain ⟨r, st', cs, h1, h2⟩ := extLoop_alike (pm := pm) (pc := pc) (n := 0) (st := st.map fun q => { q with len := 0 }) (calls := calls)
    (re.length + 1) (Nat.lt_succ_self _) hc ht hr
  refine ⟨r, st', cs, by rw [matchExt]; exact h1, ?_⟩
  have h3 : «match» m text rp st = match_ m text rp st := by
    unfold «match»
    rw [isStr_first hr]
    simp only [Res.ok_bind]
    split
    · cases re with
      | nil => contradiction
      | cons c re =>
        rw [isStr_first (isStr_cons.1 hr).2.2]
        simp only [Res.ok_bind]
        rw [if_neg hc.tail.head.2.2.2.2]
    · rw [if_neg hc.head.2.2.2.2]
  rw [h3, match_]
  exact h2

/-- "a%c*" is such a pattern. -/
example : (∀ b ∈ ([97#8, 37#8, 99#8, 42#8] : List Byte), b ∉ ([38#8, 44#8, 123#8, 125#8, 64#8] : List Byte)) ∧
    ∀ u v, ([97#8, 37#8, 99#8, 42#8] : List Byte) = u ++ 37#8 :: v → isDigitChar (v.headD 0#8) = false := by
  refine ⟨by decide, fun u v h => ?_⟩
  match u, h with
  | [], h => simp at h
  | [_], h => simp at h; obtain ⟨_, rfl⟩ := h; decide
  | [_, _], h => simp at h
  | [_, _, _], h => simp at h
  | _ :: _ :: _ :: _ :: _, h => simp at h

/-! ### the reports -/

/-- C77 (partial: no negated set, and a text without the characters for which the classes and '$' are wrong, see C52): what `match_ext` accepts is
described by the pattern; then the '%' are reported with their numbers, positions and lengths, the last one first, and the struct tells the first one;
without a match nothing is reported and the length is 0. -/
theorem C77_sound_partial {m : Mem} {text rp : Nat} {s re : List Byte} {toks : List ETok} (hp : EPattern toks re) (ht : m.IsStr text s)
    (hr : m.IsStr rp re) (hok : ∀ t ∈ toks, extOkFor s t) (hlen : s.length < 2147483648) (pm : Bool) (pc : Option (Nat → Nat → Int))
    (st : Option TextMatch) (calls : List MCall) :
    ∃ r st' cs, matchExt m pm pc text rp st calls = .ok (r, st', calls ++ cs) ∧
      ((r = 0 ∧ st' = st.map (fun q => { q with len := 0 }) ∧ cs = []) ∨
       (r = 1 ∧ ∃ caps, Captures text toks s caps ∧
          cs = (if pm then caps.reverse.map fun c => (c.1, c.2.1, (c.2.2 : Int)) else []) ∧
          st' = match caps with
            | [] => st.map fun q => { q with len := 0 }
            | c :: _ => st.map fun _ => ⟨c.2.1, (c.2.2 : Int)⟩)) := by
  rw [matchExt]
  rcases extLoop_ends (pm := pm) (pc := pc) (calls := calls) hp ht hr hok hlen (zeroLen_map st) with h | ⟨caps, h1, h2⟩
  · exact ⟨0, _, [], by rw [h, List.append_nil], Or.inl ⟨rfl, rfl, rfl⟩⟩
  · refine ⟨1, _, _, h2, Or.inr ⟨rfl, caps, h1, rfl, ?_⟩⟩
    cases caps with
    | nil => rfl
    | cons c l => cases st <;> rfl

theorem captures_matches : ∀ {toks : List ETok} {off : Nat} {s : List Byte}, Matches false (toks.map ETok.plain) s → ∃ caps, Captures off toks s caps
  | [], _, _, h => ⟨[], h, rfl⟩
  | .one neg c :: r, off, s, h => by
    obtain ⟨b, t, e, h1, h2⟩ := h
    obtain ⟨caps, h3⟩ := captures_matches (off := off + 1) h2
    exact ⟨caps, b, t, e, h1, h3⟩
  | .rep n none :: r, off, s, h => by
    obtain ⟨u, v, e, h1, h2⟩ := h
    obtain ⟨caps, h3⟩ := captures_matches (off := off + u.length) h2
    exact ⟨caps, u, v, e, h1, h3⟩
  | .rep n (some k) :: r, off, s, h => by
    obtain ⟨u, v, e, h1, h2⟩ := h
    obtain ⟨caps, h3⟩ := captures_matches (off := off + u.length) h2
    exact ⟨_, u, v, caps, e, h1, h3, rfl⟩
  | .gap :: r, off, s, h => by
    rcases h with ⟨b, t, e, h1, h2⟩ | ⟨e, h2⟩
    · obtain ⟨caps, h3⟩ := captures_matches (off := off + 1) h2
      exact ⟨caps, Or.inl ⟨b, t, e, h1, h3⟩⟩
    · obtain ⟨caps, h3⟩ := captures_matches (off := off) h2
      exact ⟨caps, Or.inr ⟨e, h3⟩⟩
  | .eot :: r, off, s, h => by
    obtain ⟨caps, h3⟩ := captures_matches (off := off) h.2
    exact ⟨caps, h.1, h3⟩

theorem matches_captures : ∀ {toks : List ETok} {off : Nat} {s : List Byte} {caps : List (Nat × Nat × Nat)}, Captures off toks s caps →
    Matches false (toks.map ETok.plain) s
  | [], _, _, _, h => h.1
  | .one neg c :: r, off, s, caps, h => by
    obtain ⟨b, t, e, h1, h2⟩ := h
    exact ⟨b, t, e, h1, matches_captures h2⟩
  | .rep n none :: r, off, s, caps, h => by
    obtain ⟨u, v, e, h1, h2⟩ := h
    exact ⟨u, v, e, h1, matches_captures h2⟩
  | .rep n (some k) :: r, off, s, caps, h => by
    obtain ⟨u, v, cs, e, h1, h2, _⟩ := h
    exact ⟨u, v, e, h1, matches_captures h2⟩
  | .gap :: r, off, s, caps, h => by
    rcases h with ⟨b, t, e, h1, h2⟩ | ⟨e, h2⟩
    · exact Or.inl ⟨b, t, e, h1, matches_captures h2⟩
    · exact Or.inr ⟨e, matches_captures h2⟩
  | .eot :: r, off, s, caps, h => ⟨h.1, matches_captures h.2⟩

theorem strict_self : ∀ (l : List Tok), (∀ n c, l.getLast? = some (.rep n c) → n ≠ 1) → strict l = l := by
  intro l
  induction l with
  | nil => intro _; rfl
  | cons t l ih =>
    intro hl
    rw [strict]
    by_cases hn : l = []
    · subst hn
      rw [if_pos rfl]
      cases t with
      | rep n c => simp [wider, hl n c (by simp)]
      | _ => rfl
    · rw [if_neg hn, ih]
      intro n c hc
      refine hl n c ?_
      rw [List.getLast?_cons]
      rw [hc]
      rfl

/-- C77 (partial: moreover no ',', the pattern without the numbers is of the form `WF` of C52, and there is no '+' or '%' at its end): `match_ext`
accepts exactly the texts that the pattern describes. -/
theorem C77_exact_partial {m : Mem} {text rp : Nat} {s re : List Byte} {toks : List ETok} (hp : EPlain toks re) (ht : m.IsStr text s)
    (hr : m.IsStr rp re) (hok : ∀ t ∈ toks, extOkFor s t) (hwf : WF (toks.map ETok.plain)) (hlast : ∀ n c, toks.getLast? = some (.rep n c) → n ≠ 1)
    (pm : Bool) (pc : Option (Nat → Nat → Int)) (st : Option TextMatch) (calls : List MCall) :
    ∃ r st' cs, matchExt m pm pc text rp st calls = .ok (r, st', cs) ∧ (r = 0 ∨ r = 1) ∧ (r = 1 ↔ ∃ caps, Captures text toks s caps) := by
  obtain ⟨re', t1, t2, t3⟩ := twin_exists hp
  let m0 : Mem := (object (s.length + 1) (re' ++ [0#8]))
  let m' : Mem := m0.write 0 (s ++ [0#8])
  have ht' : m'.IsStr 0 s := isStr_iff.2 ⟨write_holds _ _ _, ht.2.2⟩
  have hr' : m'.IsStr (s.length + 1) re' := by
    refine IsStr.write (isStr_object (s.length + 1) re' (fun b hb e => t3 (e ▸ hb)) []) ?_
    simp only [List.length_append, List.length_singleton]
    omega
  have hok' : ∀ t ∈ toks.map ETok.plain, okFor s t := by
    intro t h
    obtain ⟨t', h1, rfl⟩ := List.mem_map.1 h
    have := hok t' h1
    cases t' <;> first | exact this | trivial
  obtain ⟨r, st1, h1, ho⟩ := matchLoop_out (st := none) t2 ht' hr' hok' (by intro q h; cases h)
  obtain ⟨r1, st2, cs, st3, h2, h3⟩ := extLoop_agree (pm := pm) (pc := pc) (st := st.map fun q => { q with len := 0 }) (st' := none) (calls := calls)
    t1 ht ht' hr hr' hok
  rw [h1] at h3
  simp only [Res.ok.injEq, Prod.mk.injEq] at h3
  obtain ⟨rfl, _⟩ := h3
  refine ⟨r, st2, cs, by rw [matchExt]; exact h2, ho.bool, fun h => ?_, fun ⟨caps, h⟩ => ?_⟩
  · exact captures_matches (strict_matches (ho.sound h))
  · refine ho.complete hwf ?_
    rw [strict_self]
    · exact matches_captures h
    · intro n c hc
      rw [List.getLast?_map] at hc
      cases hl : toks.getLast? with
      | none => rw [hl] at hc; cases hc
      | some t =>
        rw [hl] at hc
        cases t <;> simp [ETok.plain] at hc
        exact hc.1 ▸ hlast _ _ hl

/-- "%1=%2;" on the text "ab=cd;": 2 then 1, and the struct has the first. -/
example : let m := objects [(16, [97#8, 98#8, 61#8, 99#8, 100#8, 59#8, 0#8]), (32, [37#8, 49#8, 61#8, 37#8, 50#8, 59#8, 0#8])]
    matchExt m true none 16 32 (some ⟨0, 7⟩) [] = .ok (1, some ⟨16, 2⟩, [(2, 19, 2), (1, 16, 2)]) := by
  intro m
  have ht : m.IsStr 16 [97#8, 98#8, 61#8, 99#8, 100#8, 59#8] := ⟨by decide, by decide⟩
  have hr : m.IsStr 32 [37#8, 49#8, 61#8, 37#8, 50#8, 59#8] := ⟨by decide, by decide⟩
  have hp : EPlain [.rep 1 (some 1), .one false (.lit 61#8), .rep 1 (some 2), .one false (.lit 59#8)] [37#8, 49#8, 61#8, 37#8, 50#8, 59#8] :=
    .cons (w := [37#8, 49#8]) (.number (k := 1) (by decide)) (by decide) (.cons (w := [61#8]) (.one (.plain (by decide) (by decide)) (by decide)) (by decide)
      (.cons (w := [37#8, 50#8]) (.number (k := 2) (by decide)) (by decide) (.cons (w := [59#8]) (.one (.plain (by decide) (by decide)) (by decide)) (by decide) .nil)))
  have hok : ∀ t ∈ [ETok.rep 1 (some 1), .one false (.lit 61#8), .rep 1 (some 2), .one false (.lit 59#8)],
      extOkFor [97#8, 98#8, 61#8, 99#8, 100#8, 59#8] t := by
    intro t ht
    simp only [List.mem_cons, List.not_mem_nil, or_false] at ht
    rcases ht with rfl | rfl | rfl | rfl <;> trivial
  obtain ⟨r, st', cs, h1, h2, h3⟩ := C77_exact_partial hp ht hr hok ⟨Or.inr (by decide), Or.inr (by decide), trivial⟩ (by intro n c h; simp at h) true none (some ⟨0, 7⟩) []
  have hr1 : r = 1 := h3.2 ⟨_, [97#8, 98#8], _, _, rfl, by decide, ⟨61#8, _, rfl, by decide, [99#8, 100#8], _, _, rfl, by decide,
    ⟨59#8, _, rfl, by decide, rfl, rfl⟩, rfl⟩, rfl⟩
  obtain ⟨r', st'', cs', g1, g2⟩ := C77_sound_partial (ePlain_ePattern hp) ht hr hok (by decide) true none (some ⟨0, 7⟩) []
  rw [h1] at g1
  simp only [Res.ok.injEq, Prod.mk.injEq] at g1
  obtain ⟨rfl, rfl, rfl⟩ := g1
  subst hr1
  rcases g2 with ⟨h, _⟩ | ⟨_, caps, hc, e1, e2⟩
  · omega
  rw [h1, e1, e2]
  obtain ⟨u, v, c1, a1, a2, ⟨b, t, b1, b2, u', v', c2, d1, d2, ⟨b', t', f1, f2, f3, f4⟩, d3⟩, a3⟩ := hc
  subst f3
  have hb : b = 61#8 := by have : (CClass.lit 61#8).has b = true := by revert b2; cases (CClass.lit 61#8).has b <;> simp
                           simpa [CClass.has, eq_comm] using this
  have hb' : b' = 59#8 := by have : (CClass.lit 59#8).has b' = true := by revert f2; cases (CClass.lit 59#8).has b' <;> simp
                             simpa [CClass.has, eq_comm] using this
  subst hb; subst hb'; subst f4; subst d3; subst a3; subst f1; subst d1; subst b1
  have hu : u = [97#8, 98#8] ∧ u' = [99#8, 100#8] := by
    match u, a1 with
    | [], a1 => simp at a1
    | [_], a1 => simp at a1
    | [_, _], a1 => simp at a1; obtain ⟨rfl, rfl, h⟩ := a1; exact ⟨rfl, by
        match u', h with
        | [], h => simp at h
        | [_], h => simp at h
        | [_, _], h => simp at h; obtain ⟨rfl, rfl⟩ := h; rfl
        | _ :: _ :: _ :: _, h => simp at h⟩
    | _ :: _ :: _ :: u, a1 =>
      exfalso
      simp only [List.cons_append, List.cons.injEq] at a1
      obtain ⟨_, _, rfl, h⟩ := a1
      have := congrArg (List.countP (· == 61#8)) h
      simp [List.countP_append] at this
  obtain ⟨rfl, rfl⟩ := hu
  rfl

/-! ### counts -/

/-- C77 (partial: a number of one digit, a class of characters without the NUL, and no '!' or '}' behind the '}'): "{dX}" in front of a pattern takes
exactly d characters of the class, and the pattern is matched with what is left; but something must be left. -/
theorem C77_count_partial {m : Mem} {text rp d : Nat} {s w re : List Byte} {c : CClass} (hw : SpellsC c w) (hx : w.headD 0#8 ∉ extSpecial)
    (hdig : isDigitChar (w.headD 0#8) = false) (h00 : c.has 0#8 = false) (hd : 1 ≤ d ∧ d ≤ 9) (h33 : re.headD 0#8 ≠ 33#8) (h125 : re.headD 0#8 ≠ 125#8)
    (ht : m.IsStr text s) (hr : m.IsStr rp (123#8 :: BitVec.ofNat 8 (48 + d) :: (w ++ 125#8 :: re))) (hok : ∀ b ∈ s, okChar b c)
    (pm : Bool) (pc : Option (Nat → Nat → Int)) (st : Option TextMatch) (calls : List MCall) :
    matchExt m pm pc text rp st calls =
      if d < s.length ∧ (s.take d).all c.has = true then matchExt m pm pc (text + d) (rp + 2 + w.length + 1) st calls
      else .ok (0, st.map (fun q => { q with len := 0 }), calls) := by
  have hne : w ≠ [] := by cases hw <;> simp
  have hhead : (w ++ 125#8 :: re).headD 0#8 = w.headD 0#8 := by
    cases w with
    | nil => exact absurd rfl hne
    | cons a w => rfl
  have h44 : w.headD 0#8 ≠ 44#8 := fun e => hx (by rw [e]; decide)
  have hrc : readCount 0 [d] = d := by simp [readCount]
  have hr3 : m.IsStr (rp + 2) (w ++ 125#8 :: re) := (isStr_cons.1 (isStr_cons.1 hr).2.2).2.2
  have hr4 := isStr_tail hr3
  rw [matchExt, matchExt]
  cases s with
  | nil =>
    rw [if_neg (by simp), extLoop_nil ht]
    unfold matchEnd
    rw [isStr_first hr]
    simp only [Res.ok_bind, List.headD_cons]
    rw [if_neg (by decide), isStr_first hr]
    simp only [Res.ok_bind, List.headD_cons]
    rw [if_neg (by decide), if_neg (by decide)]
    rfl
  | cons b s =>
    have e := extLoop_brace (pm := pm) (pc := pc) (n := 0) (st := st.map fun q => { q with len := 0 }) (calls := calls) (ds := [d]) (re := w ++ 125#8 :: re) ht hr
      (by simpa using hd.2) (by rw [hrc]; omega) (by rw [hhead]; exact hdig) (by rw [hhead]; exact h44)
    rw [e, hrc]
    by_cases hlen : d ≤ (b :: s).length
    · rw [show rp + 1 + [d].length = rp + 2 from rfl, extCount_enough hw hx hr3 ht hlen hok (by omega)]
      by_cases hall : ((b :: s).take d).all c.has = true
      · rw [if_pos hall]
        have ht2 := isStr_dropN ht hlen
        by_cases hlt : d < (b :: s).length
        · rw [if_pos ⟨hlt, hall⟩]
          cases hdr : (b :: s).drop d with
          | nil =>
            have := congrArg List.length hdr
            simp only [List.length_drop, List.length_nil] at this
            omega
          | cons x l =>
            rw [hdr] at ht2
            exact extLoop_close ht2 hr4 h33 h125
        · rw [if_neg (fun h => hlt h.1)]
          have hdr : (b :: s).drop d = [] := List.drop_eq_nil_of_le (by omega)
          rw [hdr] at ht2
          exact extLoop_close_end ht2 hr4
      · rw [if_neg hall, if_neg (fun h => hall h.2)]
    · rw [if_neg (by omega)]
      exact extCount_short hw hx hr3 h00 ht (by omega) hok

/-- What the documentation says of "{dX}", alone: exactly d characters of the class. -/
def C77_count_full : Prop := ∀ (m : Mem) (text rp d : Nat) (s : List Byte) (a : Byte), a ∉ special → a ∉ extSpecial → isDigitChar a = false → a ≠ 0#8 →
  1 ≤ d → d ≤ 9 → m.IsStr text s → m.IsStr rp [123#8, BitVec.ofNat 8 (48 + d), a, 125#8] →
    ∃ st' cs, matchExt m false none text rp none [] = .ok (if s = List.replicate d a then 1 else 0, st', cs)

/-- "{3a}" does not accept "aaa": the '}' is not skipped at the end of the text. -/
theorem C77_count_refuted : ¬ C77_count_full := by
  intro h
  let m := objects [(16, [97#8, 97#8, 97#8, 0#8]), (32, [123#8, 51#8, 97#8, 125#8, 0#8])]
  have ht : m.IsStr 16 [97#8, 97#8, 97#8] := ⟨by decide, by decide⟩
  have hr : m.IsStr 32 [123#8, 51#8, 97#8, 125#8] := ⟨by decide, by decide⟩
  obtain ⟨st', cs, h1⟩ := h m 16 32 3 [97#8, 97#8, 97#8] 97#8 (by decide) (by decide) (by decide) (by decide) (by decide) (by decide) ht hr
  have h2 := C77_count_partial (c := .lit 97#8) (w := [97#8]) (d := 3) (re := []) (.plain (by decide) (by decide)) (by decide) (by decide) (by decide) (by decide)
    (by decide) (by decide) ht hr (by intros; trivial) false none none []
  rw [h2, if_neg (by decide)] at h1
  simp at h1

/-- A count of two digits is read as eleven times the first one plus the second one: "{10a}b" takes eleven characters, and does not accept ten 'a' and a 'b'. -/
theorem C77_digits_refuted : ∃ (m : Mem) (text rp : Nat), m.IsStr text (List.replicate 10 97#8 ++ [98#8]) ∧
    m.IsStr rp [123#8, 49#8, 48#8, 97#8, 125#8, 98#8] ∧ matchExt m false none text rp none [] = .ok (0, none, []) := by
  let m := objects [(16, List.replicate 10 97#8 ++ [98#8, 0#8]), (32, [123#8, 49#8, 48#8, 97#8, 125#8, 98#8, 0#8])]
  have ht : m.IsStr 16 (List.replicate 10 97#8 ++ [98#8]) := ⟨by decide, by decide⟩
  have hr : m.IsStr 32 [123#8, 49#8, 48#8, 97#8, 125#8, 98#8] := ⟨by decide, by decide⟩
  refine ⟨m, 16, 32, ht, hr, ?_⟩
  rw [matchExt]
  have e := extLoop_brace (pm := false) (pc := none) (n := 0) (st := none) (calls := []) (ds := [1, 0]) (re := [97#8, 125#8, 98#8]) ht hr
    (by decide) (by decide) (by decide) (by decide)
  have e2 := extCount_enough (pm := false) (pc := none) (n := 0) (st := none) (calls := []) (c := .lit 97#8) (w := [97#8]) (re := [125#8, 98#8])
    (.plain (by decide) (by decide)) (by decide) (m := m) (rp := 35) ⟨by decide, by decide⟩ (k := 11) (rq := 35) ht (by decide) (by intros; trivial) (by decide)
  show extLoop m false none 16 32 0 none [] = _
  rw [e]
  exact e2.trans (if_neg (by decide))

/-- "{2?}" (likewise "{2\D}", "{2\S}", "{2\W}") on a text of one character takes the NUL for a character and goes on behind the end of the text. -/
theorem C77_overrun_refuted {m : Mem} {text rp : Nat} {b : Byte} (ht : m.IsStr text [b]) (hr : m.IsStr rp [123#8, 50#8, 63#8, 125#8])
    (hend : m (text + 2) = none) (pm : Bool) (pc : Option (Nat → Nat → Int)) (st : Option TextMatch) (calls : List MCall) :
    matchExt m pm pc text rp st calls = .ub := by
  have ht2 := (isStr_cons.1 ht).2.2
  rw [matchExt, extLoop_brace (ds := [2]) (re := [63#8, 125#8]) ht hr (by decide) (by decide) (by decide) (by decide)]
  have hr3 : m.IsStr (rp + 1 + [2].length) [63#8, 125#8] := (isStr_cons.1 (isStr_cons.1 hr).2.2).2.2
  rw [extCount, if_pos (by decide), isStr_first ht]
  simp only [Res.ok_bind]
  rw [isStr_first hr3]
  simp only [Res.ok_bind, List.headD_cons]
  rw [extStep, if_pos rfl, if_neg (by decide), extCount, if_pos (by decide), isStr_first ht2]
  simp only [Res.ok_bind]
  rw [isStr_first hr3]
  simp only [Res.ok_bind, List.headD_cons]
  rw [extStep, if_pos rfl, if_neg (by decide), extCount, if_neg (by decide), extLoop, load_none hend]
  rfl

example : ∃ m : Mem, m.IsStr 16 [97#8] ∧ m.IsStr 32 [123#8, 50#8, 63#8, 125#8] ∧ m 18 = none :=
  ⟨objects [(16, [97#8, 0#8]), (32, [123#8, 50#8, 63#8, 125#8, 0#8])], ⟨by decide, by decide⟩, ⟨by decide, by decide⟩, by decide⟩

/-- The pattern "{": the code goes on behind the end of the pattern. -/
theorem C77_brace_refuted {m : Mem} {text rp : Nat} {b : Byte} {s : List Byte} (ht : m.IsStr text (b :: s)) (hr : m.IsStr rp [123#8])
    (hend : m (rp + 2) = none) (pm : Bool) (pc : Option (Nat → Nat → Int)) (st : Option TextMatch) (calls : List MCall) :
    matchExt m pm pc text rp st calls = .ub := by
  rw [matchExt, extLoop_brace (ds := []) (re := []) ht hr (by decide) (by decide) (by decide) (by decide), extCount, if_neg (by decide), extLoop, isStr_first ht]
  simp only [Res.ok_bind, List.headD_cons]
  rw [if_neg (isStr_cons.1 ht).2.1]
  show (m.load (rp + 2) >>= _) = _
  rw [load_none hend]
  rfl

example : ∃ m : Mem, m.IsStr 16 [97#8] ∧ m.IsStr 32 [123#8] ∧ m 34 = none :=
  ⟨objects [(16, [97#8, 0#8]), (32, [123#8, 0#8])], ⟨by decide, by decide⟩, ⟨by decide, by decide⟩, by decide⟩

/-! ### single characters -/

theorem extLoop_amp {m : Mem} {pm : Bool} {text rp n : Nat} {b : Byte} {s re : List Byte} (f : Nat → Nat → Int) (st : Option TextMatch) (calls : List MCall)
    (ht : m.IsStr text (b :: s)) (hr : m.IsStr rp (38#8 :: re)) (hd : isDigitChar (re.headD 0#8) = false) :
    extLoop m pm (some f) text rp n st calls =
      if f n text = 0 then .ok (0, st, calls)
      else if f n text = -1 then .ok (1, st, calls)
      else if (text : Int) + f n text < 0 then .ub
      else extLoop m pm (some f) (((text : Int) + f n text).toNat + 1) (rp + 1) n st calls := by
  rw [extLoop_plain ht hr (by simp) (by simp) (by simp) (by simp), List.headD_cons, extStep0]
  repeat rw [if_neg (by decide)]
  rw [if_pos rfl, extDigit_none hr hd]
  simp only [Res.ok_bind]
  rfl

/-- C77 (partial: '&' in front of a pattern): without a callback it takes one character; with one, RE_NOMATCH ends without a match and RE_MATCHEND with one,
and a count v of characters goes on `v + 1` characters further. -/
theorem C77_char_partial {m : Mem} {text rp : Nat} {b : Byte} {s re : List Byte} (ht : m.IsStr text (b :: s)) (hr : m.IsStr rp (38#8 :: re))
    (hd : isDigitChar (re.headD 0#8) = false) (pm : Bool) (st : Option TextMatch) (calls : List MCall) :
    matchExt m pm none text rp st calls = matchExt m pm none (text + 1) (rp + 1) st calls ∧
    ∀ f : Nat → Nat → Int,
      (f 0 text = 0 → ∃ st', matchExt m pm (some f) text rp st calls = .ok (0, st', calls)) ∧
      (f 0 text = -1 → ∃ st', matchExt m pm (some f) text rp st calls = .ok (1, st', calls)) ∧
      (∀ v : Nat, 0 < v → f 0 text = v → matchExt m pm (some f) text rp st calls = matchExt m pm (some f) (text + v + 1) (rp + 1) st calls) := by
  constructor
  · rw [matchExt, matchExt, extLoop_plain ht hr (by simp) (by simp) (by simp) (by simp), List.headD_cons, extStep0]
    repeat rw [if_neg (by decide)]
    rw [if_pos rfl, extDigit_none hr hd]
    rfl
  · intro f
    refine ⟨fun h => ?_, fun h => ?_, fun v hv h => ?_⟩
    · rw [matchExt, extLoop_amp f _ _ ht hr hd, if_pos h]
      exact ⟨_, rfl⟩
    · rw [matchExt, extLoop_amp f _ _ ht hr hd, if_neg (by omega), if_pos h]
      exact ⟨_, rfl⟩
    · rw [matchExt, matchExt, extLoop_amp f _ _ ht hr hd, if_neg (by omega), if_neg (by omega), if_neg (by omega), h,
        show ((text : Int) + (v : Int)).toNat = text + v by omega]

/-- RE_MATCH for the only character of a text: the code goes on behind the end of the text. -/
theorem C77_char_refuted {m : Mem} {text rp : Nat} {b : Byte} (ht : m.IsStr text [b]) (hr : m.IsStr rp [38#8]) (hend : m (text + 2) = none)
    {f : Nat → Nat → Int} (hf : f 0 text = 1) (pm : Bool) (st : Option TextMatch) (calls : List MCall) :
    matchExt m pm (some f) text rp st calls = .ub := by
  rw [((C77_char_partial ht hr (by decide) pm st calls).2 f).2.2 1 (by omega) hf, matchExt, extLoop, load_none hend]
  rfl

example : ∃ m : Mem, m.IsStr 16 [97#8] ∧ m.IsStr 32 [38#8] ∧ m 18 = none :=
  ⟨objects [(16, [97#8, 0#8]), (32, [38#8, 0#8])], ⟨by decide, by decide⟩, ⟨by decide, by decide⟩, by decide⟩

/-- The example of the documentation: "x&x" on "xaax" with 2 from the callback is no match. -/
theorem C77_example_refuted {m : Mem} {text rp : Nat} (ht : m.IsStr text [120#8, 97#8, 97#8, 120#8]) (hr : m.IsStr rp [120#8, 38#8, 120#8])
    {f : Nat → Nat → Int} (hf : f 0 (text + 1) = 2) (pm : Bool) (calls : List MCall) :
    matchExt m pm (some f) text rp none calls = .ok (0, none, calls) := by
  have ht2 := (isStr_cons.1 ht).2.2
  have hr2 := (isStr_cons.1 hr).2.2
  have hr3 := (isStr_cons.1 hr2).2.2
  have ht5 : m.IsStr (text + 4) [] := isStr_tail (w := [120#8, 97#8, 97#8, 120#8]) ht
  rw [matchExt, extLoop_plain ht hr (by simp) (by simp) (by simp) (by simp), List.headD_cons, extStep0]
  repeat rw [if_neg (by decide)]
  rw [extLoop_amp f _ _ ht2 hr2 (by decide), hf, if_neg (by decide), if_neg (by decide), if_neg (by omega),
    show (((text + 1 : Nat) : Int) + 2).toNat + 1 = text + 4 by omega, extLoop_nil ht5]
  unfold matchEnd
  rw [isStr_first hr3]
  simp only [Res.ok_bind, List.headD_cons]
  rw [if_neg (by decide), isStr_first hr3]
  simp only [Res.ok_bind, List.headD_cons]
  rw [if_neg (by decide), if_neg (by decide)]
  rfl

/-- The number of a '&' is kept for the next one without a number: in "&1&" the second call is made with 1 (by the documentation with 0, here RE_MATCHEND). -/
theorem C77_kept_refuted {m : Mem} {text rp : Nat} {a b c : Byte} (ht : m.IsStr text [a, b, c]) (hr : m.IsStr rp [38#8, 49#8, 38#8])
    {f : Nat → Nat → Int} (hf : f 1 text = 1) (hf1 : f 1 (text + 2) = 0) (_hf0 : f 0 (text + 2) = -1) (pm : Bool) (calls : List MCall) :
    matchExt m pm (some f) text rp none calls = .ok (0, none, calls) := by
  have ht3 : m.IsStr (text + 2) [c] := (isStr_cons.1 (isStr_cons.1 ht).2.2).2.2
  have hr3 := (isStr_cons.1 (isStr_cons.1 hr).2.2).2.2
  rw [matchExt, extLoop_plain ht hr (by simp) (by simp) (by simp) (by simp), List.headD_cons, extStep0]
  repeat rw [if_neg (by decide)]
  rw [if_pos rfl, extDigit_some (k := 1) hr (by decide)]
  simp only [Res.ok_bind, hf]
  rw [if_neg (by decide), if_neg (by decide), if_neg (by decide), if_neg (by omega), show ((text : Int) + 1).toNat + 1 = text + 2 by omega,
    extLoop_amp f _ _ ht3 hr3 (by decide), if_pos hf1]
  rfl

/-- "a,*" does not accept "a": the ',' is not skipped at the end of the text. -/
theorem C77_separator_refuted {m : Mem} {text rp : Nat} (ht : m.IsStr text [97#8]) (hr : m.IsStr rp [97#8, 44#8, 42#8])
    (pm : Bool) (pc : Option (Nat → Nat → Int)) (calls : List MCall) :
    (∃ toks, EPattern toks [97#8, 44#8, 42#8] ∧ Captures text toks [97#8] []) ∧
      matchExt m pm pc text rp none calls = .ok (0, none, calls) := by
  constructor
  · refine ⟨[.one false (.lit 97#8), .rep 0 none], .cons (w := [97#8]) (.one (.plain (by decide) (by decide)) (by decide)) (by decide)
      (.sep (w := [42#8]) .star (by decide) (by decide) .nil), 97#8, [], rfl, by decide, [], [], rfl, by decide, rfl, rfl⟩
  · have hr2 := (isStr_cons.1 hr).2.2
    rw [matchExt, extLoop_plain ht hr (by simp) (by simp) (by simp) (by simp), List.headD_cons, extStep0]
    repeat rw [if_neg (by decide)]
    rw [extLoop_nil (isStr_cons.1 ht).2.2]
    unfold matchEnd
    rw [isStr_first hr2]
    simp only [Res.ok_bind, List.headD_cons]
    rw [if_neg (by decide), isStr_first hr2]
    simp only [Res.ok_bind, List.headD_cons]
    rw [if_neg (by decide), if_neg (by decide)]
    rfl

/-- C77: "{2a}b" on "aab" goes on with "b" and "b", on "acb" it is no match. -/
example : let m := objects [(16, [97#8, 97#8, 98#8, 0#8]), (24, [97#8, 99#8, 98#8, 0#8]), (32, [123#8, 50#8, 97#8, 125#8, 98#8, 0#8])]
    matchExt m false none 16 32 none [] = matchExt m false none 18 36 none [] ∧ matchExt m false none 24 32 none [] = .ok (0, none, []) := by
  intro m
  have h := fun (text : Nat) (s : List Byte) (ht : m.IsStr text s) => C77_count_partial (m := m) (rp := 32) (d := 2) (w := [97#8]) (re := [98#8])
    (c := .lit 97#8) (.plain (by decide) (by decide)) (by decide) (by decide) (by decide) (by decide) (by decide) (by decide) ht
    ⟨by decide, by decide⟩ (fun _ _ => trivial) false none none []
  exact ⟨(h 16 [97#8, 97#8, 98#8] ⟨by decide, by decide⟩).trans (if_pos (by decide)),
    (h 24 [97#8, 99#8, 98#8] ⟨by decide, by decide⟩).trans (if_neg (by decide))⟩

end Minilib

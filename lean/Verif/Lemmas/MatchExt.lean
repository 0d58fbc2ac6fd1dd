import Verif.Model.MatchExt
import Verif.Spec.MatchExt
import Verif.Lemmas.Match
import Verif.Props.Match
/-
Lemmas for C77: single steps of match_ext, and its agreement with match.
-/

set_option autoImplicit false

namespace Minilib
open Mem Spec

section
variable {m : Mem} {pm : Bool} {pc : Option (Nat → Nat → Int)}

theorem extLoop_nil {text rp n : Nat} {st : Option TextMatch} {calls : List MCall} (ht : m.IsStr text []) :
    extLoop m pm pc text rp n st calls = (do let r ← matchEnd m rp; pure (r, st, calls)) := by
  rw [extLoop, load_some (isStr_nil.1 ht)]
  simp only [Res.ok_bind, if_true]

theorem extCount_zero {text pos re n : Nat} {neg : Bool} {st : Option TextMatch} {calls : List MCall} :
    extCount m pm pc text pos re 0 neg n st calls = extLoop m pm pc text (re + 1) n st calls := by
  rw [extCount, if_neg (by omega)]

theorem extCount_one {text rp n : Nat} {b : Byte} {s re : List Byte} {neg : Bool} {st : Option TextMatch} {calls : List MCall}
    (ht : m.IsStr text (b :: s)) (hr : m.IsStr rp re) :
    extCount m pm pc text rp rp 1 neg n st calls = extStep m pm pc text rp 0 neg n st calls b (re.headD 0#8) := by
  rw [extCount, if_pos (by omega), load_some (isStr_cons.1 ht).1]
  simp only [Res.ok_bind]
  rw [isStr_first hr]
  rfl

theorem extCountOf_plain {rp : Nat} {re : List Byte} (hr : m.IsStr rp re) (h1 : re.headD 0#8 ≠ 125#8) (h2 : re.headD 0#8 ≠ 123#8)
    (h3 : re.headD 0#8 ≠ 44#8) : extCountOf m rp = .ok (rp, 1) := by
  unfold extCountOf
  rw [isStr_first hr]
  simp only [Res.ok_bind]
  rw [if_neg h1, isStr_first hr]
  simp only [Res.ok_bind]
  rw [if_neg h2]
  simp only [Res.pure_eq, Res.ok_bind]
  rw [isStr_first hr]
  simp only [Res.ok_bind]
  rw [if_neg h3]

theorem extCountOf_sep {rp : Nat} {re : List Byte} (hr : m.IsStr rp (44#8 :: re)) : extCountOf m rp = .ok (rp + 1, 1) := by
  unfold extCountOf
  rw [isStr_first hr]
  simp only [Res.ok_bind, List.headD_cons]
  rw [if_neg (by decide), isStr_first hr]
  simp only [Res.ok_bind, List.headD_cons]
  rw [if_neg (by decide)]
  simp only [Res.pure_eq, Res.ok_bind]
  rw [isStr_first hr]
  rfl

theorem extLoop_plain {text rp n : Nat} {b : Byte} {s re : List Byte} {st : Option TextMatch} {calls : List MCall}
    (ht : m.IsStr text (b :: s)) (hr : m.IsStr rp re) (h0 : re.headD 0#8 ≠ 33#8) (h1 : re.headD 0#8 ≠ 125#8)
    (h2 : re.headD 0#8 ≠ 123#8) (h3 : re.headD 0#8 ≠ 44#8) :
    extLoop m pm pc text rp n st calls = extStep m pm pc text rp 0 false n st calls b (re.headD 0#8) := by
  rw [extLoop, load_some (isStr_cons.1 ht).1]
  simp only [Res.ok_bind]
  rw [if_neg (isStr_cons.1 ht).2.1, isStr_first hr]
  simp only [Res.ok_bind, h0, decide_false, Bool.false_eq_true, if_false]
  rw [extCountOf_plain hr h1 h2 h3]
  simp only [Res.ok_bind]
  exact extCount_one ht hr

theorem extLoop_neg {text rp n : Nat} {b : Byte} {s re : List Byte} {st : Option TextMatch} {calls : List MCall}
    (ht : m.IsStr text (b :: s)) (hr : m.IsStr rp (33#8 :: re)) (h1 : re.headD 0#8 ≠ 125#8)
    (h2 : re.headD 0#8 ≠ 123#8) (h3 : re.headD 0#8 ≠ 44#8) :
    extLoop m pm pc text rp n st calls = extStep m pm pc text (rp + 1) 0 true n st calls b (re.headD 0#8) := by
  have hr2 := (isStr_cons.1 hr).2.2
  rw [extLoop, load_some (isStr_cons.1 ht).1]
  simp only [Res.ok_bind]
  rw [if_neg (isStr_cons.1 ht).2.1, isStr_first hr]
  simp only [Res.ok_bind, List.headD_cons, decide_true, if_true]
  rw [extCountOf_plain hr2 h1 h2 h3]
  simp only [Res.ok_bind]
  exact extCount_one ht hr2

theorem extLoop_sep {text rp n : Nat} {b : Byte} {s re : List Byte} {st : Option TextMatch} {calls : List MCall}
    (ht : m.IsStr text (b :: s)) (hr : m.IsStr rp (44#8 :: re)) :
    extLoop m pm pc text rp n st calls = extStep m pm pc text (rp + 1) 0 false n st calls b (re.headD 0#8) := by
  have hr2 := (isStr_cons.1 hr).2.2
  rw [extLoop, load_some (isStr_cons.1 ht).1]
  simp only [Res.ok_bind]
  rw [if_neg (isStr_cons.1 ht).2.1, isStr_first hr]
  have e : (44#8 : Byte) ≠ 33#8 := by decide
  simp only [Res.ok_bind, List.headD_cons, e, decide_false, Bool.false_eq_true, if_false]
  rw [extCountOf_sep hr]
  simp only [Res.ok_bind]
  exact extCount_one ht hr2

/-! ### agreement with match -/

/-- Patterns that mean the same to both engines: none of the characters & , { } @, no digit behind a '%'. -/
structure Core (re : List Byte) : Prop where
  chars : ∀ b ∈ re, b ∉ [38#8, 44#8, 123#8, 125#8, 64#8]
  digit : ∀ u v, re = u ++ 37#8 :: v → isDigitChar (v.headD 0#8) = false

theorem Core.drop {re : List Byte} (h : Core re) (k : Nat) : Core (re.drop k) :=
  ⟨fun b hb => h.chars b (List.mem_of_mem_drop hb), fun u v e => h.digit (re.take k ++ u) v (by
    rw [List.append_assoc, ← e, List.take_append_drop])⟩

theorem Core.tail {c : Byte} {re : List Byte} (h : Core (c :: re)) : Core re := h.drop 1

theorem Core.head {re : List Byte} (h : Core re) : re.headD 0#8 ≠ 125#8 ∧ re.headD 0#8 ≠ 123#8 ∧ re.headD 0#8 ≠ 44#8 ∧
    re.headD 0#8 ≠ 38#8 ∧ re.headD 0#8 ≠ 64#8 := by
  cases re with
  | nil => simp
  | cons c re =>
    have := h.chars c (by simp)
    simp only [List.mem_cons, List.not_mem_nil, or_false, not_or] at this
    simp only [List.headD_cons]
    exact ⟨this.2.2.2.1, this.2.2.1, this.2.1, this.1, this.2.2.2.2⟩

theorem extDigit_none {rp n : Nat} {c : Byte} {re : List Byte} (hr : m.IsStr rp (c :: re)) (h : isDigitChar (re.headD 0#8) = false) :
    extDigit m rp n = .ok (rp, n) := by
  unfold extDigit
  rw [isStr_first (isStr_cons.1 hr).2.2]
  simp only [Res.ok_bind]
  rw [if_neg]
  · rfl
  · revert h
    generalize re.headD 0#8 = x
    revert x
    decide +kernel

/-- The two engines end alike. -/
def Alike (x : Res ExtOut) (y : Res (Nat × Option TextMatch)) : Prop := ∃ r st cs, x = .ok (r, st, cs) ∧ y = .ok (r, st)

theorem alike_pure (r : Nat) (st : Option TextMatch) (cs : List MCall) :
    Alike (pure (r, st, cs)) (pure (r, st)) := ⟨_, _, _, rfl, rfl⟩

theorem extReport_fst {n : Nat} {mp : Option Nat} {text : Nat} {st : Option TextMatch} {calls : List MCall} :
    (extReport pm n mp text st calls).1 = setMatch st mp text := by
  cases mp <;> rfl

theorem alike_report {r n : Nat} {mp : Option Nat} {text : Nat} {st : Option TextMatch} {calls : List MCall} :
    Alike (pure (r, extReport pm n mp text st calls)) (pure (r, setMatch st mp text)) :=
  ⟨r, setMatch st mp text, (extReport pm n mp text st calls).2, by rw [← extReport_fst (pm := pm) (n := n) (calls := calls)]; rfl, rfl⟩

theorem starLoop_alike {re : List Byte} {rp : Nat} (hr : m.IsStr rp re)
    (ih : ∀ {s : List Byte} {text k : Nat} {st : Option TextMatch} {calls : List MCall}, m.IsStr text s →
      Alike (extLoop m pm pc text rp k st calls) (matchLoop m text rp st)) (neg : Bool) (n : Nat) (mp : Option Nat) :
    ∀ {s : List Byte} {text : Nat} {b : Byte} {st : Option TextMatch} {calls : List MCall}, m.IsStr text (b :: s) →
      Alike (extStarLoop m pm pc text rp st calls neg n mp) (starLoop m text rp st neg mp) := by
  intro s
  induction s with
  | nil =>
    intro text b st calls ht
    rw [starLoop, match_, extStarLoop, matchExt]
    obtain ⟨r, st', cs, hx, hy⟩ := ih (k := 0) (st := st.map fun q => { q with len := 0 }) (calls := calls) ht
    rw [hx, hy]
    simp only [Res.ok_bind]
    split
    · exact alike_report
    · rw [isStr_first (isStr_cons.1 ht).2.2]
      simp only [Res.ok_bind, List.headD_nil, if_true]
      rw [isStr_first hr]
      simp only [Res.ok_bind]
      by_cases hg : re.headD 0#8 = 35#8 ∨ re.headD 0#8 = 36#8
      · rw [if_pos hg, if_pos hg]
        cases re with
        | nil => simp at hg
        | cons c re =>
          rw [isStr_first (isStr_cons.1 hr).2.2]
          simp only [Res.ok_bind]
          split
          · exact alike_report
          · exact alike_pure _ _ _
      · rw [if_neg hg, if_neg hg]; exact alike_pure _ _ _
  | cons c s ihs =>
    intro text b st calls ht
    rw [starLoop, match_, extStarLoop, matchExt]
    obtain ⟨r, st', cs, hx, hy⟩ := ih (k := 0) (st := st.map fun q => { q with len := 0 }) (calls := calls) ht
    rw [hx, hy]
    simp only [Res.ok_bind]
    split
    · exact alike_report
    · have ht2 := (isStr_cons.1 ht).2.2
      rw [isStr_first ht2]
      simp only [Res.ok_bind, List.headD_cons]
      rw [if_neg (isStr_cons.1 ht2).2.1, if_neg (isStr_cons.1 ht2).2.1]
      exact ihs ht2

theorem setMatch_off {st : Option TextMatch} {mp : Option Nat} {e : Nat} (h : ¬ st.isSome = true) : setMatch st mp e = st := by
  cases st with
  | none => cases mp <;> rfl
  | some q => simp at h

theorem matchStar_alike {re : List Byte} {rp : Nat} (hr : m.IsStr rp re)
    (ih : ∀ {s : List Byte} {text k : Nat} {st : Option TextMatch} {calls : List MCall}, m.IsStr text s →
      Alike (extLoop m pm pc text rp k st calls) (matchLoop m text rp st)) (neg : Bool) (n : Nat) (mp : Option Nat)
    {s : List Byte} {text : Nat} {b : Byte} {st : Option TextMatch} {calls : List MCall} (ht : m.IsStr text (b :: s)) :
    Alike (extStar m pm pc text rp st calls neg n mp) (matchStar m text rp st neg mp) := by
  rw [matchStar, extStar, isStr_first hr]
  simp only [Res.ok_bind]
  split
  · rw [textEnd_eq ht]
    simp only [Res.ok_bind]
    by_cases h1 : mp.isSome = true ∧ st.isSome = true
    · rw [if_pos h1, if_pos ⟨h1.1, .inr h1.2⟩]
      exact alike_report
    · rw [if_neg h1]
      split
      · rename_i h2
        have := alike_report (pm := pm) (r := xorNeg neg 1) (n := n) (mp := mp) (text := text + (b :: s).length) (st := st) (calls := calls)
        rwa [setMatch_off (fun h => h1 ⟨h2.1, h⟩)] at this
      · exact alike_pure _ _ _
  · exact starLoop_alike hr ih neg n mp ht

theorem matchStep_alike {k : Nat} (ih : ∀ {re : List Byte}, re.length < k → Core re → ∀ {s : List Byte} {text rp n : Nat} {st : Option TextMatch}
      {calls : List MCall}, m.IsStr text s → m.IsStr rp re → Alike (extLoop m pm pc text rp n st calls) (matchLoop m text rp st))
    {re s : List Byte} {text rp n : Nat} {b : Byte} {st : Option TextMatch} {calls : List MCall} (neg : Bool) (hn : re.length ≤ k)
    (hc : Core re) (ht : m.IsStr text (b :: s)) (hr : m.IsStr rp re) :
    Alike (extStep m pm pc text rp 0 neg n st calls b (re.headD 0#8)) (matchStep m text rp st b (re.headD 0#8) neg) := by
  cases re with
  | nil =>
    rw [matchStep, extStep]
    simp only [List.headD_nil]
    repeat rw [if_neg (by decide)]
    rw [if_true, if_neg (by decide), if_neg (by decide)]
    exact alike_pure _ _ _
  | cons c re =>
    have hch := hc.head
    have hcd := hc.digit
    simp only [List.headD_cons, List.length_cons] at hn hch ⊢
    have ht2 := (isStr_cons.1 ht).2.2
    have hr2 := (isStr_cons.1 hr).2.2
    have go : Alike (extLoop m pm pc (text + 1) (rp + 1) n st calls) (matchLoop m (text + 1) (rp + 1) st) := ih (by omega) hc.tail ht2 hr2
    have starGo : ∀ n mp, Alike (extStar m pm pc text (rp + 1) st calls neg n mp) (matchStar m text (rp + 1) st neg mp) :=
      fun n mp => matchStar_alike hr2 (ih (by omega) hc.tail · hr2) neg n mp ht
    have plusGo : ∀ n mp, Alike (do
        let t ← m.load (text + 1)
        if t = 0#8 then pure (xorNeg neg 0, st, calls) else extStar m pm pc (text + 1) (rp + 1) st calls neg n mp) (do
        let t ← m.load (text + 1)
        if t = 0#8 then pure (xorNeg neg 0, st) else matchStar m (text + 1) (rp + 1) st neg mp) := by
      intro n mp
      rw [isStr_first ht2]
      simp only [Res.ok_bind]
      cases s with
      | nil => exact alike_pure _ _ _
      | cons d s =>
        rw [List.headD_cons, if_neg (isStr_cons.1 ht2).2.1, if_neg (isStr_cons.1 ht2).2.1]
        exact matchStar_alike hr2 (ih (by omega) hc.tail · hr2) neg n mp ht2
    rw [matchStep, extStep]
    simp only [extCount_zero]
    refine if h63 : c = 63#8 then ?_ else ?_
    · rw [if_pos h63, if_pos h63]; split; exact alike_pure _ _ _; exact go
    rw [if_neg h63, if_neg h63]
    refine if h91 : c = 91#8 then ?_ else ?_
    · rw [if_pos h91, if_pos h91]
      rcases classFind_safe (t := b) hr2 with h | ⟨k, hk, h⟩
      · rw [h]; exact alike_pure _ _ _
      · rw [h]
        simp only [Res.ok_bind]
        obtain ⟨j, hj, h'⟩ := classEnd_safe (isStr_dropN hr2 hk)
        rw [h']
        simp only [Res.ok_bind]
        have hr3 := isStr_dropN (isStr_dropN hr2 hk) hj
        rw [isStr_first hr3]
        simp only [Res.ok_bind]
        have hc3 := (hc.tail.drop k).drop j
        cases hd : (re.drop k).drop j with
        | nil => exact alike_pure _ _ _
        | cons d l =>
          rw [hd] at hr3 hc3
          rw [List.headD_cons, if_neg (isStr_cons.1 hr3).2.1, if_neg (isStr_cons.1 hr3).2.1]
          split
          · exact alike_pure _ _ _
          · refine ih ?_ hc3.tail ht2 (isStr_cons.1 hr3).2.2
            have := congrArg List.length hd
            simp only [List.length_drop, List.length_cons] at this
            omega
    rw [if_neg h91, if_neg h91]
    refine if h35 : c = 35#8 then ?_ else ?_
    · rw [if_pos h35, if_pos h35]; split; exact go; exact alike_pure _ _ _
    rw [if_neg h35, if_neg h35, if_neg hch.2.2.2.2, if_neg hch.2.2.2.1]
    refine if h37 : c = 37#8 then ?_ else ?_
    · rw [if_pos h37, if_pos h37]
      rw [extDigit_none hr (hcd [] re (by rw [h37]; rfl))]
      simp only [Res.ok_bind]
      exact plusGo _ _
    rw [if_neg h37, if_neg h37]
    refine if h43 : c = 43#8 then ?_ else ?_
    · rw [if_pos h43, if_pos h43]; exact plusGo _ _
    rw [if_neg h43, if_neg h43]
    refine if h42 : c = 42#8 then ?_ else ?_
    · rw [if_pos h42, if_pos h42]; exact starGo _ _
    rw [if_neg h42, if_neg h42]
    refine if h92 : c = 92#8 then ?_ else ?_
    · rw [if_pos h92, if_pos h92, isStr_first hr2]
      simp only [Res.ok_bind]
      cases re with
      | nil =>
        simp only [List.headD_nil]
        have : escapeClass neg 0#8 b = none := by simp [escapeClass]
        rw [this]
        exact alike_pure _ _ _
      | cons d re =>
        simp only [List.headD_cons]
        have go2 : Alike (extLoop m pm pc (text + 1) (rp + 2) n st calls) (matchLoop m (text + 1) (rp + 2) st) :=
          ih (by simp only [List.length_cons] at hn; omega) hc.tail.tail ht2 (isStr_cons.1 hr2).2.2
        cases escapeClass neg d b with
        | some v => cases v; exact alike_pure _ _ _; exact go2
        | none =>
          show Alike (if d = 0#8 then pure (0, st, calls) else if (neg ^^ decide (d ≠ b)) then pure (0, st, calls)
            else extLoop m pm pc (text + 1) (rp + 2) n st calls)
            (if d = 0#8 then pure (0, st) else if (neg ^^ decide (d ≠ b)) then pure (0, st) else matchLoop m (text + 1) (rp + 2) st)
          split
          · exact alike_pure _ _ _
          · split
            · exact alike_pure _ _ _
            · exact go2
    rw [if_neg h92, if_neg h92]
    split
    · exact alike_pure _ _ _
    · split; exact alike_pure _ _ _; exact go

theorem extLoop_alike : ∀ (k : Nat) {re : List Byte}, re.length < k → Core re → ∀ {s : List Byte} {text rp n : Nat} {st : Option TextMatch}
    {calls : List MCall}, m.IsStr text s → m.IsStr rp re → Alike (extLoop m pm pc text rp n st calls) (matchLoop m text rp st)
  | k + 1, re, hn, hc, s, text, rp, n, st, calls, ht, hr => by
    have hch := hc.head
    cases s with
    | nil =>
      rw [extLoop_nil ht, matchLoop, isStr_first ht]
      simp only [Res.ok_bind, List.headD_nil, if_true]
      obtain ⟨r, h⟩ := matchEnd_safe hr
      rw [h]
      exact alike_pure _ _ _
    | cons b s =>
      by_cases h33 : re.headD 0#8 = 33#8
      · cases re with
        | nil => simp at h33
        | cons c re =>
          simp only [List.headD_cons] at h33
          subst h33
          have hch' := hc.tail.head
          rw [matchLoop_neg ht hr, extLoop_neg ht hr hch'.1 hch'.2.1 hch'.2.2.1]
          exact matchStep_alike (extLoop_alike k) true (by simp only [List.length_cons] at hn; omega) hc.tail ht (isStr_cons.1 hr).2.2
      · rw [matchLoop_cons ht hr h33, extLoop_plain ht hr h33 hch.1 hch.2.1 hch.2.2.1]
        exact matchStep_alike (extLoop_alike k) false (by omega) hc ht hr

/-! ### the parts of a pattern -/

/-- The step without a count. -/
theorem extStep0 {text pos n : Nat} {neg : Bool} {st : Option TextMatch} {calls : List MCall} {t c : Byte} :
    extStep m pm pc text pos 0 neg n st calls t c =
    if c = 63#8 then (if neg then pure (0, st, calls) else extLoop m pm pc (text + 1) (pos + 1) n st calls)
    else if c = 91#8 then do
      let r ← classFind m t (pos + 1)
      match r with
      | none => pure (xorNeg neg 0, st, calls)
      | some re => do
        let re ← classEnd m re
        let d ← m.load re
        if d = 0#8 then pure (0, st, calls)
        else if neg then pure (0, st, calls)
        else extLoop m pm pc (text + 1) (re + 1) n st calls
    else if c = 35#8 then
      (if (neg ^^ isspace (t.signExtend 32)) then extLoop m pm pc (text + 1) (pos + 1) n st calls else pure (0, st, calls))
    else if c = 38#8 then do
      let d ← extDigit m pos n
      match pc with
      | none => if neg then pure (0, st, calls) else extLoop m pm pc (text + 1) (d.1 + 1) d.2 st calls
      | some f =>
        let v := f d.2 text
        if v = 0 then (if neg then extLoop m pm pc (text + 1) (d.1 + 1) d.2 st calls else pure (0, st, calls))
        else if v = -1 then pure (xorNeg neg 1, st, calls)
        else if neg then pure (0, st, calls)
        else if (text : Int) + v < 0 then .ub
        else extLoop m pm pc (((text : Int) + v).toNat + 1) (d.1 + 1) d.2 st calls
    else if c = 37#8 then do
      let d ← extDigit m pos n
      let t ← m.load (text + 1)
      if t = 0#8 then pure (xorNeg neg 0, st, calls) else extStar m pm pc (text + 1) (d.1 + 1) st calls neg d.2 (some text)
    else if c = 43#8 then do
      let t ← m.load (text + 1)
      if t = 0#8 then pure (xorNeg neg 0, st, calls) else extStar m pm pc (text + 1) (pos + 1) st calls neg n none
    else if c = 42#8 then extStar m pm pc text (pos + 1) st calls neg n none
    else if c = 92#8 then do
      let c ← m.load (pos + 1)
      match escapeClass neg c t with
      | some true => extLoop m pm pc (text + 1) (pos + 1 + 1) n st calls
      | some false => pure (0, st, calls)
      | none =>
        if c = 0#8 then pure (0, st, calls)
        else if (neg ^^ decide (c ≠ t)) then pure (0, st, calls)
        else extLoop m pm pc (text + 1) (pos + 1 + 1) n st calls
    else if c = 0#8 then pure (0, st, calls)
    else if (neg ^^ decide (c ≠ t)) then pure (0, st, calls)
    else extLoop m pm pc (text + 1) (pos + 1) n st calls := by
  rw [extStep]
  simp only [extCount_zero]
  rfl

theorem ext_escape_letter {text rp n : Nat} {b : Byte} {s : List Byte} {st : Option TextMatch} {calls : List MCall} {x : Byte} {re : List Byte} {neg v : Bool}
    (hr : m.IsStr rp (92#8 :: x :: re)) (he : escapeClass neg x b = some v) :
    extStep m pm pc text rp 0 neg n st calls b 92#8 = if v = true then extLoop m pm pc (text + 1) (rp + 2) n st calls else .ok (0, st, calls) := by
  obtain ⟨_, _, g3⟩ := isStr_cons.1 hr
  obtain ⟨g1, _, _⟩ := isStr_cons.1 g3
  rw [extStep0, if_neg (by decide), if_neg (by decide), if_neg (by decide), if_neg (by decide), if_neg (by decide), if_neg (by decide),
    if_neg (by decide), if_pos rfl, load_some g1]
  simp only [Res.ok_bind]
  rw [he]
  cases v <;> rfl

theorem ext_step_class {text rp n : Nat} {b : Byte} {s re w : List Byte} {st : Option TextMatch} {calls : List MCall} {c : CClass} {neg : Bool} (hw : SpellsC c w) (hx : w.headD 0#8 ∉ extSpecial)
    (ht : m.IsStr text (b :: s)) (hr : m.IsStr rp (w ++ re)) (hok : okFor (b :: s) (.one neg c)) :
    extStep m pm pc text rp 0 neg n st calls b ((w ++ re).headD 0#8) = if (neg ^^ c.has b) = true then extLoop m pm pc (text + 1) (rp + w.length) n st calls else .ok (0, st, calls) := by
  have hb0 : b ≠ 0#8 := (isStr_cons.1 ht).2.1
  cases hw with
  | @plain x hx0 hxs =>
    simp only [special, List.mem_cons, List.not_mem_nil, or_false, not_or] at hxs
    obtain ⟨x1, x2, x3, x4, x5, x6, x7, x8, x9, x10⟩ := hxs
    simp only [List.headD_cons, extSpecial, List.mem_cons, List.not_mem_nil, or_false, not_or] at hx
    simp only [List.singleton_append, List.headD_cons, List.length_singleton]
    rw [extStep0, if_neg x2, if_neg x3, if_neg x4, if_neg hx.1, if_neg x6, if_neg x7, if_neg x8, if_neg x9, if_neg hx0]
    simp only [CClass.has]
    cases neg <;> by_cases h : x = b <;> simp [h] <;> rfl
  | @esc x hx0 hxl =>
    simp only [escLetters, List.mem_cons, List.not_mem_nil, or_false, not_or] at hxl
    obtain ⟨x1, x2, x3, x4, x5, x6⟩ := hxl
    simp only [List.cons_append, List.nil_append, List.headD_cons, List.length_cons, List.length_nil]
    obtain ⟨_, _, g3⟩ := isStr_cons.1 hr
    obtain ⟨g1, _, _⟩ := isStr_cons.1 g3
    rw [extStep0, if_neg (by decide), if_neg (by decide), if_neg (by decide), if_neg (by decide), if_neg (by decide), if_neg (by decide),
      if_neg (by decide), if_pos rfl, load_some g1]
    simp only [Res.ok_bind]
    have he : escapeClass neg x b = none := by simp [escapeClass, x1, x2, x3, x4, x5, x6]
    rw [he]
    simp only
    rw [if_neg hx0]
    simp only [CClass.has]
    cases neg <;> by_cases h : x = b <;> simp [h] <;> rfl
  | any =>
    simp only [List.singleton_append, List.headD_cons, List.length_singleton]
    rw [extStep0, if_pos rfl]
    cases neg <;> simp [CClass.has] <;> rfl
  | @set l h0 h93 =>
    obtain ⟨rfl, h93s⟩ := hok
    simp only [List.cons_append, List.append_assoc, List.nil_append, List.headD_cons, List.length_cons, List.length_append, List.length_nil] at hr ⊢
    obtain ⟨_, _, g3⟩ := isStr_cons.1 hr
    have hb93 : b ≠ 93#8 := by rintro rfl; simp at h93s
    obtain ⟨f1, f2⟩ := classFind_eq (t := b) g3 h93 hb93
    rw [extStep0, if_neg (by decide), if_pos rfl]
    by_cases hm : b ∈ l
    · obtain ⟨u, v, e1, e2⟩ := f1 hm
      rw [e2]
      simp only [Res.ok_bind]
      subst e1
      rw [List.append_assoc] at g3
      have g4 := isStr_tail g3
      rw [classEnd_eq (l := b :: v) (rest := re) g4 (fun h => h93 (by simp only [List.mem_append]; exact Or.inr h))]
      simp only [Res.ok_bind]
      have g5 := isStr_tail (w := b :: v) g4
      rw [load_some (isStr_cons.1 g5).1]
      simp only [Res.ok_bind]
      rw [if_neg (by decide), if_neg (by decide), if_pos (by simp [CClass.has])]
      congr 1
      simp only [List.length_append, List.length_cons]
      omega
    · rw [f2 hm]
      simp only [Res.ok_bind]
      rw [if_neg (by simp [CClass.has, hm])]
      rfl
  | digit => exact ext_escape_letter (s := s) hr (by simp [escapeClass, isdigit_ext, CClass.has])
  | nondigit => exact ext_escape_letter (s := s) hr (by simp [escapeClass, isdigit_ext, CClass.has])
  | space => exact ext_escape_letter (s := s) hr (by simp [escapeClass, isspace_ext, CClass.has])
  | nonspace => exact ext_escape_letter (s := s) hr (by simp [escapeClass, isspace_ext, CClass.has])
  | word =>
    refine ext_escape_letter (s := s) hr ?_
    rw [← (word_small b (hok b (by simp)) neg).1]
    simp [escapeClass]
  | nonword =>
    refine ext_escape_letter (s := s) hr ?_
    rw [← (word_small b (hok b (by simp)) neg).2]
    simp [escapeClass]



theorem ext_step_at {text rp n : Nat} {b : Byte} {st : Option TextMatch} {calls : List MCall} {neg : Bool} (hb : b ≠ 0#8) :
    extStep m pm pc text rp 0 neg n st calls b 64#8 =
      if (neg ^^ CClass.has (.lit 64#8) b) = true then extLoop m pm pc (text + 1) (rp + 1) n st calls else .ok (0, st, calls) := by
  rw [extStep0]
  repeat rw [if_neg (by decide)]
  simp only [CClass.has]
  cases neg <;> by_cases h : 64#8 = b <;> simp [h] <;> rfl

theorem ext_step_gap {text rp n : Nat} {b : Byte} {st : Option TextMatch} {calls : List MCall} {neg : Bool} :
    extStep m pm pc text rp 0 neg n st calls b 35#8 =
      if (neg ^^ isSpaceChar b) = true then extLoop m pm pc (text + 1) (rp + 1) n st calls else .ok (0, st, calls) := by
  rw [extStep0, if_neg (by decide), if_neg (by decide), if_pos rfl, isspace_ext]
  rfl

theorem ext_step_eot {text rp n : Nat} {b : Byte} {st : Option TextMatch} {calls : List MCall} (hb : b ≠ 36#8) :
    extStep m pm pc text rp 0 false n st calls b 36#8 = .ok (0, st, calls) := by
  rw [extStep0]
  repeat rw [if_neg (by decide)]
  rw [if_pos (by simp; exact fun e => hb e.symm)]
  rfl

theorem ext_step_nil {text rp n : Nat} {b : Byte} {st : Option TextMatch} {calls : List MCall} {neg : Bool} :
    extStep m pm pc text rp 0 neg n st calls b 0#8 = .ok (0, st, calls) := by
  rw [extStep0]
  repeat rw [if_neg (by decide)]
  rw [if_pos rfl]
  rfl

theorem ext_step_star {text rp n : Nat} {b : Byte} {st : Option TextMatch} {calls : List MCall} {neg : Bool} :
    extStep m pm pc text rp 0 neg n st calls b 42#8 = extStar m pm pc text (rp + 1) st calls neg n none := by
  rw [extStep0]
  repeat rw [if_neg (by decide)]
  rw [if_pos rfl]

theorem ext_step_plus {text rp n : Nat} {b : Byte} {s : List Byte} {st : Option TextMatch} {calls : List MCall} (ht : m.IsStr text (b :: s)) :
    extStep m pm pc text rp 0 false n st calls b 43#8 =
      if s = [] then .ok (0, st, calls) else extStar m pm pc (text + 1) (rp + 1) st calls false n none := by
  rw [extStep0]
  repeat rw [if_neg (by decide)]
  rw [if_pos rfl, isStr_first (isStr_cons.1 ht).2.2]
  simp only [Res.ok_bind]
  cases s with
  | nil => simp [xorNeg]
  | cons c s => rw [List.headD_cons, if_neg (isStr_cons.1 (isStr_cons.1 ht).2.2).2.1, if_neg (by simp)]

theorem ext_step_percent {text rp n rq k : Nat} {b : Byte} {s : List Byte} {st : Option TextMatch} {calls : List MCall} (ht : m.IsStr text (b :: s))
    (hd : extDigit m rp n = .ok (rq, k)) :
    extStep m pm pc text rp 0 false n st calls b 37#8 =
      if s = [] then .ok (0, st, calls) else extStar m pm pc (text + 1) (rq + 1) st calls false k (some text) := by
  rw [extStep0]
  repeat rw [if_neg (by decide)]
  rw [if_pos rfl, hd]
  simp only [Res.ok_bind]
  rw [isStr_first (isStr_cons.1 ht).2.2]
  simp only [Res.ok_bind]
  cases s with
  | nil => simp [xorNeg]
  | cons c s => rw [List.headD_cons, if_neg (isStr_cons.1 (isStr_cons.1 ht).2.2).2.1, if_neg (by simp)]

theorem extDigit_some {rp n k : Nat} {c : Byte} {re : List Byte} (hr : m.IsStr rp (c :: BitVec.ofNat 8 (48 + k) :: re)) (hk : k ≤ 9) :
    extDigit m rp n = .ok (rp + 1, k) := by
  unfold extDigit
  rw [isStr_first (isStr_cons.1 hr).2.2]
  simp only [Res.ok_bind, List.headD_cons]
  have : ∀ k ≤ 9, (BitVec.ofNat 8 (48 + k)).toInt = 48 + k := by decide
  rw [this k hk, if_pos (by omega), show ((48 : Int) + k - 48).toNat = k by omega]
  rfl

/-! ### what the '%' stand for -/

/-- What is assumed of the text for a part of the pattern. -/
def extOkFor (s : List Byte) : ETok → Prop
  | .one neg c => okFor s (.one neg c)
  | .eot => 36#8 ∉ s
  | _ => True

theorem extOkFor_tail {b : Byte} {s : List Byte} {t : ETok} (h : extOkFor (b :: s) t) : extOkFor s t := by
  cases t with
  | one neg c =>
    cases c with
    | set l => exact ⟨h.1, fun hm => h.2 (by simp [hm])⟩
    | word => exact fun x hx => h x (by simp [hx])
    | nonword => exact fun x hx => h x (by simp [hx])
    | _ => trivial
  | eot => exact fun hm => h (by simp [hm])
  | _ => trivial

/-- The struct after the reports: the first '%' is the last to be written. -/
def firstCap (st : Option TextMatch) : List (Nat × Nat × Nat) → Option TextMatch
  | [] => st
  | c :: _ => st.map fun _ => ⟨c.2.1, (c.2.2 : Int)⟩

/-- The calls for the reports: the last '%' first. -/
def capCalls (pm : Bool) (caps : List (Nat × Nat × Nat)) : List MCall :=
  if pm then caps.reverse.map fun c => (c.1, c.2.1, (c.2.2 : Int)) else []

/-- How matching ends. -/
def ExtEnds (x : Res ExtOut) (pm : Bool) (toks : List ETok) (text : Nat) (s : List Byte) (st : Option TextMatch) (calls : List MCall) : Prop :=
  x = .ok (0, st, calls) ∨ ∃ caps, Captures text toks s caps ∧ x = .ok (1, firstCap st caps, calls ++ capCalls pm caps)

/-- The state of the struct when the loop begins. -/
def ZeroLen (st : Option TextMatch) : Prop := (st.map fun q => { q with len := 0 }) = st

theorem zeroLen_map (st : Option TextMatch) : ZeroLen (st.map fun q => { q with len := 0 }) := by
  cases st <;> rfl

theorem eSpells_ne {t : ETok} {w : List Byte} (h : ESpells t w) : w ≠ [] := by
  cases h with
  | one h => cases h <;> simp
  | _ => simp

theorem ePattern_nil {ts : List ETok} {re : List Byte} (h : EPattern ts re) : ts = [] ↔ re = [] := by
  cases h with
  | nil => simp
  | cons h1 h2 => simp [eSpells_ne h1]
  | sep => simp

theorem captures_gap_end {off : Nat} {toks : List ETok} {caps : List (Nat × Nat × Nat)} (h : Captures off toks [] caps) :
    Captures off (.gap :: toks) [] caps := Or.inr ⟨rfl, h⟩


theorem eSpells_special {t : ETok} {w re : List Byte} {x : Byte} (h : ESpells t w) (hx : (w ++ re).headD 0#8 = x) (hs : x ∈ [35#8, 36#8, 42#8]) :
    w = [x] ∧ (t = .gap ∧ x = 35#8 ∨ t = .eot ∧ x = 36#8 ∨ t = .rep 0 none ∧ x = 42#8) := by
  cases h with
  | one h =>
    exfalso
    cases h with
    | @plain y hx0 hxs =>
      simp only [List.singleton_append, List.headD_cons] at hx
      apply hxs
      rw [hx]
      simp only [List.mem_cons, List.not_mem_nil, or_false] at hs
      rcases hs with rfl | rfl | rfl <;> decide
    | _ => (simp at hx; subst hx; revert hs; decide)
  | number h => (simp at hx; subst hx; exact absurd hs (by decide))
  | neg h => (simp at hx; subst hx; exact absurd hs (by decide))
  | _ => (simp at hx; subst hx; revert hs; decide)

theorem ePattern_special {toks : List ETok} {re : List Byte} {x : Byte} (h : EPattern toks re) (hx : re.headD 0#8 = x) (hs : x ∈ [35#8, 36#8, 42#8]) :
    ∃ t ts re', re = x :: re' ∧ toks = t :: ts ∧ EPattern ts re' ∧ (t = .gap ∧ x = 35#8 ∨ t = .eot ∧ x = 36#8 ∨ t = .rep 0 none ∧ x = 42#8) := by
  cases h with
  | nil => simp at hx; subst hx; exact absurd hs (by decide)
  | @cons t w ts re h1 h2 h3 =>
    obtain ⟨e1, e2⟩ := eSpells_special h1 hx hs
    exact ⟨t, ts, re, by rw [e1]; rfl, rfl, h3, e2⟩
  | sep => simp at hx; subst hx; exact absurd hs (by decide)

/-- The text is at its end. -/
theorem extEnd_eq {rp off : Nat} {re : List Byte} {toks : List ETok} (hp : EPattern toks re) (hr : m.IsStr rp re) :
    matchEnd m rp = .ok 0 ∨ (matchEnd m rp = .ok 1 ∧ Captures off toks [] []) := by
  have key : ∀ {rp : Nat} {re : List Byte} {toks : List ETok}, EPattern toks re → m.IsStr rp re →
      ∃ r, (do
        let c ← m.load rp
        if c = 0#8 then pure 1
        else if c = 42#8 then do
          let d ← m.load (rp + 1)
          if d = 0#8 then pure 1 else pure 0
        else pure 0) = Res.ok r ∧ (r = 0 ∨ (r = 1 ∧ Captures off toks [] [])) := by
    intro rp re toks hp hr
    rw [isStr_first hr]
    simp only [Res.ok_bind]
    split
    · rename_i h0
      refine ⟨1, rfl, Or.inr ⟨rfl, ?_⟩⟩
      cases re with
      | nil => rw [(ePattern_nil hp).2 rfl]; exact ⟨rfl, rfl⟩
      | cons c l => exact absurd h0 (isStr_cons.1 hr).2.1
    · split
      · rename_i h42
        obtain ⟨t, ts, re', rfl, rfl, h3, h4⟩ := ePattern_special hp h42 (by decide)
        rw [isStr_first (isStr_cons.1 hr).2.2]
        simp only [Res.ok_bind]
        split
        · rename_i h0
          refine ⟨1, rfl, Or.inr ⟨rfl, ?_⟩⟩
          have e1 : t = .rep 0 none := by
            rcases h4 with ⟨_, h⟩ | ⟨_, h⟩ | ⟨h, _⟩
            · cases h
            · cases h
            · exact h
          subst e1
          cases re' with
          | nil => rw [(ePattern_nil h3).2 rfl]; exact ⟨[], [], rfl, Nat.le_refl _, rfl, rfl⟩
          | cons c l => exact absurd h0 (isStr_cons.1 (isStr_cons.1 hr).2.2).2.1
        · exact ⟨0, rfl, Or.inl rfl⟩
      · exact ⟨0, rfl, Or.inl rfl⟩
  unfold matchEnd
  rw [isStr_first hr]
  simp only [Res.ok_bind]
  by_cases hg : re.headD 0#8 = 35#8 ∨ re.headD 0#8 = 36#8
  · rw [if_pos hg]
    generalize hx : re.headD 0#8 = x at hg
    obtain ⟨t, ts, re', rfl, rfl, h3, h4⟩ := ePattern_special hp hx (by
      rcases hg with h | h <;> rw [h] <;> decide)
    obtain ⟨r, e, h⟩ := key h3 (isStr_cons.1 hr).2.2
    rw [e]
    rcases h with rfl | ⟨rfl, h⟩
    · exact Or.inl rfl
    · refine Or.inr ⟨rfl, ?_⟩
      rcases h4 with ⟨rfl, _⟩ | ⟨rfl, _⟩ | ⟨rfl, h'⟩
      · exact Or.inr ⟨rfl, h⟩
      · exact ⟨rfl, h⟩
      · rw [h'] at hg; exact absurd hg (by decide)
  · rw [if_neg hg]
    obtain ⟨r, e, h⟩ := key hp hr
    rw [e]
    rcases h with rfl | ⟨rfl, h⟩
    · exact Or.inl rfl
    · exact Or.inr ⟨rfl, h⟩

/-- How the search for the rest of the pattern ends. -/
def StarEnds (x : Res ExtOut) (pm : Bool) (rest : List ETok) (n : Nat) (mp : Option Nat) (text : Nat) (s : List Byte) (st : Option TextMatch)
    (calls : List MCall) : Prop :=
  x = .ok (0, st, calls) ∨ ∃ u v caps, s = u ++ v ∧ Captures (text + u.length) rest v caps ∧
    x = .ok (1, extReport pm n mp (text + u.length) (firstCap st caps) (calls ++ capCalls pm caps))

theorem extStarLoop_ends {rest : List ETok} {re : List Byte} {rp : Nat} (hp : EPattern rest re) (hr : m.IsStr rp re) {full : List Byte}
    (ih : ∀ {s : List Byte} {text : Nat} {st : Option TextMatch} {calls : List MCall}, m.IsStr text s → s <:+ full → ZeroLen st →
      ExtEnds (extLoop m pm pc text rp 0 st calls) pm rest text s st calls) (n : Nat) (mp : Option Nat) :
    ∀ {s : List Byte} {text : Nat} {b : Byte} {st : Option TextMatch} {calls : List MCall}, m.IsStr text (b :: s) → b :: s <:+ full → ZeroLen st →
      StarEnds (extStarLoop m pm pc text rp st calls false n mp) pm rest n mp text (b :: s) st calls := by
  intro s
  induction s with
  | nil =>
    intro text b st calls ht hf hz
    rw [extStarLoop, matchExt, hz]
    rcases ih (calls := calls) ht hf hz with h | ⟨caps, h1, h2⟩
    · rw [h]
      simp only [Res.ok_bind]
      rw [if_neg (by simp), isStr_first (isStr_cons.1 ht).2.2]
      simp only [Res.ok_bind, List.headD_nil, if_true]
      rw [isStr_first hr]
      simp only [Res.ok_bind]
      by_cases hg : re.headD 0#8 = 35#8 ∨ re.headD 0#8 = 36#8
      · rw [if_pos hg]
        generalize hx : re.headD 0#8 = x at hg
        obtain ⟨t, ts, re', rfl, rfl, h3, h4⟩ := ePattern_special hp hx (by
          rcases hg with h | h <;> rw [h] <;> decide)
        rw [isStr_first (isStr_cons.1 hr).2.2]
        simp only [Res.ok_bind]
        split
        · rename_i h0
          refine Or.inr ⟨[b], [], [], rfl, ?_, ?_⟩
          · have e : ts = [] := by
              cases re' with
              | nil => exact (ePattern_nil h3).2 rfl
              | cons c l => exact absurd h0 (isStr_cons.1 (isStr_cons.1 hr).2.2).2.1
            subst e
            rcases h4 with ⟨rfl, _⟩ | ⟨rfl, _⟩ | ⟨rfl, h'⟩
            · exact Or.inr ⟨rfl, rfl, rfl⟩
            · exact ⟨rfl, rfl, rfl⟩
            · rw [h'] at hg; exact absurd hg (by decide)
          · cases pm <;> simp [capCalls, firstCap, xorNeg]
        · exact Or.inl rfl
      · rw [if_neg hg]; exact Or.inl rfl
    · rw [h2]
      simp only [Res.ok_bind]
      rw [if_pos (by simp)]
      exact Or.inr ⟨[], [b], caps, rfl, h1, rfl⟩
  | cons c s ihs =>
    intro text b st calls ht hf hz
    rw [extStarLoop, matchExt, hz]
    rcases ih (calls := calls) ht hf hz with h | ⟨caps, h1, h2⟩
    · have ht2 := (isStr_cons.1 ht).2.2
      rw [h]
      simp only [Res.ok_bind]
      rw [if_neg (by simp), isStr_first ht2]
      simp only [Res.ok_bind, List.headD_cons]
      rw [if_neg (isStr_cons.1 ht2).2.1]
      rcases ihs (calls := calls) ht2 ((List.suffix_cons _ _).trans hf) hz with h | ⟨u, v, caps, e1, e2, e3⟩
      · exact Or.inl h
      · rw [show text + 1 + u.length = text + (b :: u).length by simp only [List.length_cons]; omega] at e2 e3
        exact Or.inr ⟨b :: u, v, caps, by rw [e1]; rfl, e2, e3⟩
    · rw [h2]
      simp only [Res.ok_bind]
      rw [if_pos (by simp)]
      exact Or.inr ⟨[], b :: c :: s, caps, rfl, h1, rfl⟩

theorem extStar_ends {rest : List ETok} {re : List Byte} {rp : Nat} (hp : EPattern rest re) (hr : m.IsStr rp re) {full : List Byte}
    (ih : ∀ {s : List Byte} {text : Nat} {st : Option TextMatch} {calls : List MCall}, m.IsStr text s → s <:+ full → ZeroLen st →
      ExtEnds (extLoop m pm pc text rp 0 st calls) pm rest text s st calls) (n : Nat) (mp : Option Nat)
    {s : List Byte} {text : Nat} {b : Byte} {st : Option TextMatch} {calls : List MCall} (ht : m.IsStr text (b :: s)) (hf : b :: s <:+ full)
    (hz : ZeroLen st) : StarEnds (extStar m pm pc text rp st calls false n mp) pm rest n mp text (b :: s) st calls := by
  rw [extStar, isStr_first hr]
  simp only [Res.ok_bind]
  split
  · rename_i h0
    have e : rest = [] := by
      cases re with
      | nil => exact (ePattern_nil hp).2 rfl
      | cons c l => exact absurd h0 (isStr_cons.1 hr).2.1
    subst e
    refine Or.inr ⟨b :: s, [], [], by simp, ⟨rfl, rfl⟩, ?_⟩
    split
    · rw [textEnd_eq ht]
      cases pm <;> simp [capCalls, firstCap, xorNeg]
    · rename_i h
      cases mp with
      | none => cases pm <;> simp [capCalls, firstCap, xorNeg, extReport]
      | some p =>
        simp only [Option.isSome_some, true_and, not_or] at h
        cases pm with
        | true => exact absurd rfl h.1
        | false =>
          cases st with
          | none => simp [capCalls, firstCap, xorNeg, extReport, setMatch]
          | some q => exact absurd rfl h.2
  · exact extStarLoop_ends hp hr ih n mp ht hf hz

/-- From the search to the whole: a part that is not reported. -/
theorem ends_plain {x : Res ExtOut} {k n text : Nat} {rest : List ETok} {w s : List Byte} {st : Option TextMatch} {calls : List MCall}
    (h : StarEnds x pm rest n none (text + w.length) s st calls) (hk : k ≤ w.length) :
    ExtEnds x pm (.rep k none :: rest) text (w ++ s) st calls := by
  rcases h with h | ⟨u, v, caps, e1, e2, e3⟩
  · exact Or.inl h
  · refine Or.inr ⟨caps, ⟨w ++ u, v, by rw [e1, List.append_assoc], by simp only [List.length_append]; omega, ?_⟩, e3⟩
    rwa [List.length_append, ← Nat.add_assoc]

/-- From the search to the whole: a '%'. -/
theorem ends_cap {x : Res ExtOut} {n text : Nat} {rest : List ETok} {b : Byte} {s : List Byte} {st : Option TextMatch} {calls : List MCall}
    (h : StarEnds x pm rest n (some text) (text + 1) s st calls) (hs : (b :: s).length < 2147483648) :
    ExtEnds x pm (.rep 1 (some n) :: rest) text (b :: s) st calls := by
  rcases h with h | ⟨u, v, caps, e1, e2, e3⟩
  · exact Or.inl h
  · refine Or.inr ⟨(n, text, (b :: u).length) :: caps, ⟨b :: u, v, caps, by rw [e1]; rfl, by simp, ?_, rfl⟩, ?_⟩
    · rwa [show text + (b :: u).length = text + 1 + u.length by simp only [List.length_cons]; omega]
    · rw [e3]
      have hl : (BitVec.ofNat 32 (text + 1 + u.length - text)).toInt = ((b :: u).length : Int) := by
        rw [show text + 1 + u.length - text = (b :: u).length by simp only [List.length_cons]; omega]
        simp only [e1, List.length_cons, List.length_append] at hs ⊢
        rw [BitVec.toInt_eq_toNat_of_lt (by rw [BitVec.toNat_ofNat]; omega), BitVec.toNat_ofNat, Nat.mod_eq_of_lt (by omega)]
      simp only [extReport, setMatch, hl]
      congr 2
      · congr 1
        · cases caps <;> cases st <;> simp [firstCap]
        · cases pm <;> simp [capCalls]

theorem ends_one {x y : Res ExtOut} {text : Nat} {b : Byte} {s : List Byte} {neg : Bool} {c : CClass} {rest : List ETok} {st : Option TextMatch}
    {calls : List MCall} (e : y = if (neg ^^ c.has b) = true then x else .ok (0, st, calls)) (h : ExtEnds x pm rest (text + 1) s st calls) :
    ExtEnds y pm (.one neg c :: rest) text (b :: s) st calls := by
  rw [e]
  split
  · rename_i hc
    rcases h with h | ⟨caps, e2, e3⟩
    · exact Or.inl h
    · refine Or.inr ⟨caps, ⟨b, s, rfl, ?_, e2⟩, e3⟩
      revert hc
      cases neg <;> cases c.has b <;> simp
  · exact Or.inl rfl

theorem eSpells_head {t : ETok} {w re : List Byte} (h : ESpells t w) :
    (w ++ re).headD 0#8 ≠ 125#8 ∧ (w ++ re).headD 0#8 ≠ 123#8 ∧ (w ++ re).headD 0#8 ≠ 44#8 := by
  have key : ∀ {w : List Byte}, w ≠ [] → w.headD 0#8 ∉ extSpecial →
      (w ++ re).headD 0#8 ≠ 125#8 ∧ (w ++ re).headD 0#8 ≠ 123#8 ∧ (w ++ re).headD 0#8 ≠ 44#8 := by
    intro w hw hx
    cases w with
    | nil => exact absurd rfl hw
    | cons c w =>
      simp only [List.headD_cons, extSpecial, List.mem_cons, List.not_mem_nil, or_false, not_or] at hx
      exact ⟨hx.2.2.2, hx.2.2.1, hx.2.1⟩
  have hne := eSpells_ne h
  cases h with
  | one h hx => exact key hne hx
  | _ => simp

theorem extStep_ends {t : ETok} {w re : List Byte} {toks : List ETok} (hw : ESpells t w) (hd : w = [37#8] → isDigitChar (re.headD 0#8) = false)
    (hp : EPattern toks re) (h33 : w.headD 0#8 ≠ 33#8)
    (ih : ∀ {s : List Byte} {text rp : Nat} {st : Option TextMatch} {calls : List MCall}, m.IsStr text s → m.IsStr rp re → (∀ t ∈ toks, extOkFor s t) →
      s.length < 2147483648 → ZeroLen st → ExtEnds (extLoop m pm pc text rp 0 st calls) pm toks text s st calls)
    {b : Byte} {s : List Byte} {text rp : Nat} {st : Option TextMatch} {calls : List MCall} (ht : m.IsStr text (b :: s)) (hr : m.IsStr rp (w ++ re))
    (hok : ∀ t' ∈ t :: toks, extOkFor (b :: s) t') (hs : (b :: s).length < 2147483648) (hz : ZeroLen st) :
    ExtEnds (extStep m pm pc text rp 0 false 0 st calls b ((w ++ re).headD 0#8)) pm (t :: toks) text (b :: s) st calls := by
  have ht2 := (isStr_cons.1 ht).2.2
  have hb0 := (isStr_cons.1 ht).2.1
  have hr2 := isStr_tail hr
  have hs2 : s.length < 2147483648 := by simp only [List.length_cons] at hs; omega
  have hoks : ∀ t' ∈ toks, extOkFor s t' := fun t' h => extOkFor_tail (hok t' (List.mem_cons_of_mem _ h))
  have hsuf : ∀ {s' : List Byte}, s' <:+ b :: s → ∀ t' ∈ toks, extOkFor s' t' := by
    intro s' h t' ht'
    obtain ⟨u, e⟩ := h
    have := hok t' (List.mem_cons_of_mem _ ht')
    rw [← e] at this
    clear e hok ht'
    induction u with
    | nil => exact this
    | cons x u ihu => exact ihu (extOkFor_tail this)
  have star : ∀ {s' : List Byte} {text' : Nat} {st' : Option TextMatch} {calls' : List MCall}, m.IsStr text' s' → s' <:+ b :: s → ZeroLen st' →
      ExtEnds (extLoop m pm pc text' (rp + w.length) 0 st' calls') pm toks text' s' st' calls' :=
    fun h1 h2 h3 => ih h1 hr2 (hsuf h2) (Nat.lt_of_le_of_lt h2.length_le hs) h3
  have go := ih (calls := calls) ht2 hr2 hoks hs2 hz
  cases hw with
  | one h hx => exact ends_one (ext_step_class h hx ht hr (hok (.one false _) (by simp))) go
  | at_ => exact ends_one (ext_step_at hb0) go
  | neg h => simp at h33
  | negGap => simp at h33
  | star =>
    simp only [List.singleton_append, List.headD_cons]
    rw [ext_step_star]
    exact ends_plain (w := []) (extStar_ends hp hr2 star 0 none ht (List.suffix_refl _) hz) (Nat.le_refl _)
  | plus =>
    simp only [List.singleton_append, List.headD_cons]
    rw [ext_step_plus ht]
    split
    · exact Or.inl rfl
    · cases s with
      | nil => contradiction
      | cons c s => exact ends_plain (w := [b]) (extStar_ends hp hr2 star 0 none ht2 (List.suffix_cons _ _) hz) (Nat.le_refl _)
  | percent =>
    simp only [List.singleton_append, List.headD_cons]
    rw [ext_step_percent ht (extDigit_none hr (hd rfl))]
    split
    · exact Or.inl rfl
    · cases s with
      | nil => contradiction
      | cons c s => exact ends_cap (extStar_ends hp hr2 star 0 (some text) ht2 (List.suffix_cons _ _) hz) hs
  | @number k hk =>
    simp only [List.cons_append, List.nil_append, List.headD_cons]
    rw [ext_step_percent ht (extDigit_some hr hk)]
    split
    · exact Or.inl rfl
    · cases s with
      | nil => contradiction
      | cons c s => exact ends_cap (extStar_ends hp hr2 star k (some text) ht2 (List.suffix_cons _ _) hz) hs
  | gap =>
    simp only [List.singleton_append, List.headD_cons]
    rw [ext_step_gap]
    split
    · rename_i hc
      rcases go with h | ⟨caps, e2, e3⟩
      · exact Or.inl h
      · exact Or.inr ⟨caps, Or.inl ⟨b, s, rfl, by simpa using hc, e2⟩, e3⟩
    · exact Or.inl rfl
  | eot =>
    simp only [List.singleton_append, List.headD_cons]
    rw [ext_step_eot]
    · exact Or.inl rfl
    · have := hok .eot (by simp)
      simp only [extOkFor, List.mem_cons, not_or] at this
      exact fun e => this.1 e.symm

theorem extLoop_ends {toks : List ETok} {re : List Byte} (hp : EPattern toks re) :
    ∀ {s : List Byte} {text rp : Nat} {st : Option TextMatch} {calls : List MCall}, m.IsStr text s → m.IsStr rp re → (∀ t ∈ toks, extOkFor s t) →
      s.length < 2147483648 → ZeroLen st → ExtEnds (extLoop m pm pc text rp 0 st calls) pm toks text s st calls := by
  have atEnd : ∀ {toks : List ETok} {re : List Byte}, EPattern toks re → ∀ {text rp : Nat} {st : Option TextMatch} {calls : List MCall},
      m.IsStr text [] → m.IsStr rp re → ExtEnds (extLoop m pm pc text rp 0 st calls) pm toks text [] st calls := by
    intro toks re hp text rp st calls ht hr
    rw [extLoop_nil ht]
    rcases extEnd_eq (off := text) hp hr with h | ⟨h, hc⟩
    · rw [h]; exact Or.inl rfl
    · rw [h]; exact Or.inr ⟨[], hc, by cases pm <;> simp [capCalls, firstCap] <;> rfl⟩
  induction hp with
  | nil =>
    intro s text rp st calls ht hr hok hs hz
    cases s with
    | nil => exact atEnd .nil ht hr
    | cons b s =>
      rw [extLoop_plain ht hr (by simp) (by simp) (by simp) (by simp), List.headD_nil, ext_step_nil]
      exact Or.inl rfl
  | @cons t w toks re hw hd hp ih =>
    intro s text rp st calls ht hr hok hs hz
    cases s with
    | nil => exact atEnd (.cons hw hd hp) ht hr
    | cons b s =>
      by_cases h33 : w.headD 0#8 = 33#8
      · have ht2 := (isStr_cons.1 ht).2.2
        have hr2 := isStr_tail hr
        have hs2 : s.length < 2147483648 := by simp only [List.length_cons] at hs; omega
        have go := ih (calls := calls) ht2 hr2 (fun t' h => extOkFor_tail (hok t' (List.mem_cons_of_mem _ h))) hs2 hz
        cases hw with
        | one h hx =>
          have := spellsC_head (re := []) h
          rw [List.append_nil] at this
          exact absurd h33 this
        | @neg c w h hx =>
          have hh := eSpells_head (re := re) (ESpells.one h hx)
          rw [List.cons_append] at hr
          rw [extLoop_neg ht hr hh.1 hh.2.1 hh.2.2]
          refine ends_one (ext_step_class h hx ht (isStr_cons.1 hr).2.2 (hok (.one true _) (by simp))) ?_
          rwa [List.length_cons, ← Nat.add_assoc, Nat.add_right_comm] at go
        | negGap =>
          rw [List.cons_append] at hr
          rw [extLoop_neg ht hr (by simp) (by simp) (by simp)]
          exact ends_one (c := .space) (by simp only [List.singleton_append, List.headD_cons]; exact ext_step_gap) go
        | _ => simp at h33
      · have hh := eSpells_head (re := re) hw
        have hne := eSpells_ne hw
        rw [extLoop_plain ht hr (by cases w with
          | nil => exact absurd rfl hne
          | cons c w => exact h33) hh.1 hh.2.1 hh.2.2]
        exact extStep_ends hw hd hp h33 ih ht hr hok hs hz
  | @sep t w toks re hw h33 hd hp ih =>
    intro s text rp st calls ht hr hok hs hz
    cases s with
    | nil => exact atEnd (.sep hw h33 hd hp) ht hr
    | cons b s =>
      rw [extLoop_sep ht hr]
      exact extStep_ends hw hd hp h33 ih ht (isStr_cons.1 hr).2.2 hok hs hz


/-! ### counts -/

theorem ext_count_letter {text rp n : Nat} {b : Byte} {cnt : Int} {st : Option TextMatch} {calls : List MCall} {x : Byte} {re : List Byte} {neg v : Bool}
    (hr : m.IsStr rp (92#8 :: x :: re)) (he : escapeClass neg x b = some v) :
    extStep m pm pc text rp cnt neg n st calls b 92#8 =
      if v = true then extCount m pm pc (text + 1) rp (rp + 1) cnt neg n st calls else .ok (0, st, calls) := by
  obtain ⟨_, _, g3⟩ := isStr_cons.1 hr
  obtain ⟨g1, _, _⟩ := isStr_cons.1 g3
  rw [extStep, if_neg (by decide), if_neg (by decide), if_neg (by decide), if_neg (by decide), if_neg (by decide), if_neg (by decide),
    if_neg (by decide), if_pos rfl, load_some g1]
  simp only [Res.ok_bind]
  rw [he]
  cases v <;> rfl

/-- What is assumed of a character for a class. -/
def okChar (b : Byte) : CClass → Prop
  | .set _ => b ≠ 93#8
  | .word => b.toNat < 127
  | .nonword => b.toNat < 127
  | _ => True

/-- One character in a counted part; the character may be the NUL. -/
theorem ext_count_class {text rp n : Nat} {b : Byte} {cnt : Int} {re w : List Byte} {st : Option TextMatch} {calls : List MCall} {c : CClass}
    (hw : SpellsC c w) (hx : w.headD 0#8 ∉ extSpecial) (hr : m.IsStr rp (w ++ re)) (hok : okChar b c) :
    extStep m pm pc text rp cnt false n st calls b ((w ++ re).headD 0#8) =
      if c.has b = true then extCount m pm pc (text + 1) rp (rp + w.length - 1) cnt false n st calls else .ok (0, st, calls) := by
  cases hw with
  | @plain x hx0 hxs =>
    simp only [special, List.mem_cons, List.not_mem_nil, or_false, not_or] at hxs
    obtain ⟨x1, x2, x3, x4, x5, x6, x7, x8, x9, x10⟩ := hxs
    simp only [List.headD_cons, extSpecial, List.mem_cons, List.not_mem_nil, or_false, not_or] at hx
    simp only [List.singleton_append, List.headD_cons, List.length_singleton]
    rw [extStep, if_neg x2, if_neg x3, if_neg x4, if_neg hx.1, if_neg x6, if_neg x7, if_neg x8, if_neg x9, if_neg hx0]
    simp only [CClass.has]
    by_cases h : x = b <;> simp [h] <;> rfl
  | @esc x hx0 hxl =>
    simp only [escLetters, List.mem_cons, List.not_mem_nil, or_false, not_or] at hxl
    obtain ⟨x1, x2, x3, x4, x5, x6⟩ := hxl
    simp only [List.cons_append, List.nil_append, List.headD_cons, List.length_cons, List.length_nil]
    obtain ⟨_, _, g3⟩ := isStr_cons.1 hr
    obtain ⟨g1, _, _⟩ := isStr_cons.1 g3
    rw [extStep, if_neg (by decide), if_neg (by decide), if_neg (by decide), if_neg (by decide), if_neg (by decide), if_neg (by decide),
      if_neg (by decide), if_pos rfl, load_some g1]
    simp only [Res.ok_bind]
    have he : escapeClass false x b = none := by simp [escapeClass, x1, x2, x3, x4, x5, x6]
    rw [he]
    simp only
    rw [if_neg hx0]
    simp only [CClass.has]
    by_cases h : x = b <;> simp [h] <;> rfl
  | any =>
    simp only [List.singleton_append, List.headD_cons, List.length_singleton]
    rw [extStep, if_pos rfl]
    simp [CClass.has]
  | @set l h0 h93 =>
    simp only [List.cons_append, List.append_assoc, List.nil_append, List.headD_cons, List.length_cons, List.length_append, List.length_nil] at hr ⊢
    obtain ⟨_, _, g3⟩ := isStr_cons.1 hr
    have hb93 : b ≠ 93#8 := hok
    obtain ⟨f1, f2⟩ := classFind_eq (t := b) g3 h93 hb93
    rw [extStep, if_neg (by decide), if_pos rfl]
    by_cases hm : b ∈ l
    · obtain ⟨u, v, e1, e2⟩ := f1 hm
      rw [e2]
      simp only [Res.ok_bind]
      subst e1
      rw [List.append_assoc] at g3
      have g4 := isStr_tail g3
      rw [classEnd_eq (l := b :: v) (rest := re) g4 (fun h => h93 (by simp only [List.mem_append]; exact Or.inr h))]
      simp only [Res.ok_bind]
      have g5 := isStr_tail (w := b :: v) g4
      rw [load_some (isStr_cons.1 g5).1]
      simp only [Res.ok_bind]
      rw [if_neg (by decide), if_neg (by decide), if_pos (by simp [CClass.has])]
      congr 1
      simp only [List.length_append, List.length_cons]
      omega
    · rw [f2 hm]
      simp only [Res.ok_bind]
      rw [if_neg (by simp [CClass.has, hm])]
      rfl
  | digit => rw [show rp + [92#8, 100#8].length - 1 = rp + 1 from rfl]; exact ext_count_letter hr (by simp [escapeClass, isdigit_ext, CClass.has])
  | nondigit => rw [show rp + [92#8, 68#8].length - 1 = rp + 1 from rfl]; exact ext_count_letter hr (by simp [escapeClass, isdigit_ext, CClass.has])
  | space => rw [show rp + [92#8, 115#8].length - 1 = rp + 1 from rfl]; exact ext_count_letter hr (by simp [escapeClass, isspace_ext, CClass.has])
  | nonspace => rw [show rp + [92#8, 83#8].length - 1 = rp + 1 from rfl]; exact ext_count_letter hr (by simp [escapeClass, isspace_ext, CClass.has])
  | word =>
    refine ext_count_letter hr ?_
    rw [← Bool.false_xor (CClass.word.has b), ← (word_small b hok false).1]
    simp [escapeClass]
  | nonword =>
    refine ext_count_letter hr ?_
    rw [← Bool.false_xor (CClass.nonword.has b), ← (word_small b hok false).2]
    simp [escapeClass]

/-- The loop over a counted part, in a text with enough characters. -/
theorem extCount_enough {c : CClass} {w re : List Byte} {rp n : Nat} {st : Option TextMatch} {calls : List MCall} (hw : SpellsC c w)
    (hx : w.headD 0#8 ∉ extSpecial) (hr : m.IsStr rp (w ++ re)) :
    ∀ {k : Nat} {s : List Byte} {text rq : Nat}, m.IsStr text s → k ≤ s.length → (∀ b ∈ s, okChar b c) → (k = 0 → rq = rp + w.length - 1) →
      extCount m pm pc text rp rq (k : Int) false n st calls =
        if (s.take k).all c.has = true then extLoop m pm pc (text + k) (rp + w.length) n st calls else .ok (0, st, calls) := by
  have hne : 0 < w.length := by cases hw <;> simp
  intro k
  induction k with
  | zero =>
    intro s text rq ht hk hok h0
    rw [extCount, if_neg (by simp), h0 rfl]
    simp [show rp + w.length - 1 + 1 = rp + w.length by omega]
  | succ k ih =>
    intro s text rq ht hk hok h0
    cases s with
    | nil => simp at hk
    | cons b s =>
      have ht2 := (isStr_cons.1 ht).2.2
      rw [extCount, if_pos (by omega), load_some (isStr_cons.1 ht).1]
      simp only [Res.ok_bind]
      rw [isStr_first hr]
      simp only [Res.ok_bind]
      rw [ext_count_class hw hx hr (hok b (by simp)), show ((k + 1 : Nat) : Int) - 1 = (k : Int) by omega,
        ih ht2 (by simp only [List.length_cons] at hk; omega) (fun b hb => hok b (by simp [hb])) (fun _ => rfl)]
      simp only [List.take_succ_cons, List.all_cons, Bool.and_eq_true, show text + 1 + k = text + (k + 1) by omega]
      by_cases h1 : c.has b = true <;> by_cases h2 : (s.take k).all c.has = true <;> simp [h1, h2]

/-- The loop over a counted part, in a text that is too short. -/
theorem extCount_short {c : CClass} {w re : List Byte} {rp n : Nat} {st : Option TextMatch} {calls : List MCall} (hw : SpellsC c w)
    (hx : w.headD 0#8 ∉ extSpecial) (hr : m.IsStr rp (w ++ re)) (h00 : c.has 0#8 = false) :
    ∀ {k : Nat} {s : List Byte} {text rq : Nat}, m.IsStr text s → s.length < k → (∀ b ∈ s, okChar b c) →
      extCount m pm pc text rp rq (k : Int) false n st calls = .ok (0, st, calls) := by
  intro k
  induction k with
  | zero => intro s text rq ht hk; omega
  | succ k ih =>
    intro s text rq ht hk hok
    rw [extCount, if_pos (by omega), isStr_first ht]
    simp only [Res.ok_bind]
    rw [isStr_first hr]
    simp only [Res.ok_bind]
    cases s with
    | nil =>
      rw [List.headD_nil, ext_count_class hw hx hr (by cases c <;> simp [okChar]), h00]
      simp
    | cons b s =>
      have ht2 := (isStr_cons.1 ht).2.2
      rw [List.headD_cons, ext_count_class hw hx hr (hok b (by simp)), show ((k + 1 : Nat) : Int) - 1 = (k : Int) by omega,
        ih ht2 (by simp only [List.length_cons] at hk; omega) (fun b hb => hok b (by simp [hb]))]
      simp

theorem digit_char {d : Nat} (hd : d ≤ 9) : isdigit ((BitVec.ofNat 8 (48 + d)).signExtend 32) = true ∧
    (BitVec.ofNat 8 (48 + d)).toInt - 48 = d := by
  have : ∀ d ≤ 9, isdigit ((BitVec.ofNat 8 (48 + d)).signExtend 32) = true ∧ (BitVec.ofNat 8 (48 + d)).toInt - 48 = d := by decide
  exact this d hd

/-- The number the code reads. -/
def readCount : Nat → List Nat → Nat
  | a, [] => a
  | a, d :: ds => readCount (a + (a * 10 + d)) ds

theorem readCount_ge : ∀ (ds : List Nat) (a : Nat), a ≤ readCount a ds
  | [], a => Nat.le_refl a
  | d :: ds, a => Nat.le_trans (by omega) (readCount_ge ds (a + (a * 10 + d)))

theorem extNumber_eq {re : List Byte} (hre : isDigitChar (re.headD 0#8) = false) : ∀ {ds : List Nat} {x : Byte} {rp a : Nat},
    m.IsStr rp (x :: (ds.map (fun d => BitVec.ofNat 8 (48 + d)) ++ re)) → (∀ d ∈ ds, d ≤ 9) → readCount a ds < 2147483648 →
      extNumber m rp (a : Int) = .ok (rp + 1 + ds.length, (readCount a ds : Int))
  | [], x, rp, a, hr, hd, hlt => by
    rw [extNumber, isStr_first (isStr_cons.1 hr).2.2]
    simp only [Res.ok_bind, List.map_nil, List.nil_append]
    rw [if_neg (by rw [isdigit_ext]; simpa [isDigitChar] using hre)]
    rfl
  | d :: ds, x, rp, a, hr, hd, hlt => by
    have hr2 := (isStr_cons.1 hr).2.2
    obtain ⟨g1, g2⟩ := digit_char (hd d (by simp))
    have hge := readCount_ge ds (a + (a * 10 + d))
    rw [readCount] at hlt
    rw [extNumber, isStr_first hr2]
    simp only [Res.ok_bind, List.map_cons, List.cons_append, List.headD_cons]
    rw [if_pos g1, g2, ckInt_ok (by omega) (by omega)]
    simp only [Res.ok_bind]
    rw [ckInt_ok (by omega) (by omega)]
    simp only [Res.ok_bind]
    rw [show (a : Int) + (a * 10 + d) = ((a + (a * 10 + d) : Nat) : Int) by omega,
      extNumber_eq hre hr2 (fun d' h => hd d' (by simp [h])) hlt, readCount, List.length_cons]
    congr 2
    omega

/-- The loop, at a '{' with a number. -/
theorem extLoop_brace {text rp n : Nat} {b : Byte} {s : List Byte} {ds : List Nat} {re : List Byte} {st : Option TextMatch} {calls : List MCall}
    (ht : m.IsStr text (b :: s)) (hr : m.IsStr rp (123#8 :: (ds.map (fun d => BitVec.ofNat 8 (48 + d)) ++ re)))
    (hd : ∀ d ∈ ds, d ≤ 9) (hlt : readCount 0 ds < 2147483648) (hre : isDigitChar (re.headD 0#8) = false) (h44 : re.headD 0#8 ≠ 44#8) :
    extLoop m pm pc text rp n st calls =
      extCount m pm pc text (rp + 1 + ds.length) (rp + 1 + ds.length) (readCount 0 ds : Int) false n st calls := by
  have hr3 : m.IsStr (rp + 1 + ds.length) re := by
    have := isStr_tail (isStr_cons.1 hr).2.2
    rwa [List.length_map] at this
  rw [extLoop, load_some (isStr_cons.1 ht).1]
  simp only [Res.ok_bind]
  rw [if_neg (isStr_cons.1 ht).2.1, isStr_first hr]
  have e : (123#8 : Byte) ≠ 33#8 := by decide
  simp only [Res.ok_bind, List.headD_cons, e, decide_false, Bool.false_eq_true, if_false]
  unfold extCountOf
  rw [isStr_first hr]
  simp only [Res.ok_bind, List.headD_cons]
  rw [if_neg (by decide), isStr_first hr]
  simp only [Res.ok_bind, List.headD_cons]
  have := extNumber_eq (a := 0) hre hr hd hlt
  simp only [Int.natCast_zero] at this
  rw [if_pos trivial, this]
  simp only [Res.ok_bind]
  rw [isStr_first hr3]
  simp only [Res.ok_bind]
  rw [if_neg h44]
  rfl

/-- The loop, at a '}' which ended a counted part. -/
theorem extLoop_close {text rp n : Nat} {b : Byte} {s : List Byte} {re : List Byte} {st : Option TextMatch} {calls : List MCall}
    (ht : m.IsStr text (b :: s)) (hr : m.IsStr rp (125#8 :: re)) (h33 : re.headD 0#8 ≠ 33#8) (h125 : re.headD 0#8 ≠ 125#8) :
    extLoop m pm pc text rp n st calls = extLoop m pm pc text (rp + 1) n st calls := by
  have hr2 := (isStr_cons.1 hr).2.2
  have e : (125#8 : Byte) ≠ 33#8 := by decide
  have e1 : extCountOf m rp = extCountOf m (rp + 1) := by
    unfold extCountOf
    rw [isStr_first hr, isStr_first hr2]
    simp only [Res.ok_bind, List.headD_cons]
    rw [if_pos trivial, if_neg h125]
  rw [extLoop, extLoop, load_some (isStr_cons.1 ht).1]
  simp only [Res.ok_bind]
  rw [if_neg (isStr_cons.1 ht).2.1, if_neg (isStr_cons.1 ht).2.1, isStr_first hr, isStr_first hr2]
  simp only [Res.ok_bind, List.headD_cons, e, h33, decide_false, Bool.false_eq_true, if_false]
  rw [e1]

theorem extLoop_close_end {text rp n : Nat} {re : List Byte} {st : Option TextMatch} {calls : List MCall}
    (ht : m.IsStr text []) (hr : m.IsStr rp (125#8 :: re)) : extLoop m pm pc text rp n st calls = .ok (0, st, calls) := by
  rw [extLoop_nil ht]
  unfold matchEnd
  rw [isStr_first hr]
  simp only [Res.ok_bind, List.headD_cons]
  rw [if_neg (by decide), isStr_first hr]
  simp only [Res.ok_bind, List.headD_cons]
  rw [if_neg (by decide), if_neg (by decide)]
  rfl


/-! ### the same pattern without the numbers -/

theorem ePlain_ePattern {toks : List ETok} {re : List Byte} (h : EPlain toks re) : EPattern toks re := by
  induction h with
  | nil => exact .nil
  | cons h1 h2 _ ih => exact .cons h1 h2 ih

/-- The two patterns have the same parts. -/
inductive Twin : List ETok → List Byte → List Byte → Prop
  | nil : Twin [] [] []
  | cons {t : ETok} {w w' : List Byte} {ts : List ETok} {re re' : List Byte} : ESpells t w → (w = [37#8] → isDigitChar (re.headD 0#8) = false) →
      Spells t.plain w' → Twin ts re re' → Twin (t :: ts) (w ++ re) (w' ++ re')

theorem twin_exists {toks : List ETok} {re : List Byte} (h : EPlain toks re) :
    ∃ re', Twin toks re re' ∧ Pattern (toks.map ETok.plain) re' ∧ 0#8 ∉ re' := by
  induction h with
  | nil => exact ⟨[], .nil, .nil, by simp⟩
  | @cons t w ts re h1 h2 h3 ih =>
    obtain ⟨re', i1, i2, i3⟩ := ih
    have key : ∃ w', Spells t.plain w' ∧ 0#8 ∉ w' := by
      have cls : ∀ {c : CClass} {w : List Byte}, SpellsC c w → 0#8 ∉ w := by
        intro c w h
        cases h with
        | plain h0 _ => simpa using fun e => h0 e.symm
        | esc h0 _ => simpa using fun e => h0 e.symm
        | set h0 _ => simpa using h0
        | _ => decide
      cases h1 with
      | one h => exact ⟨w, .one h, cls h⟩
      | at_ => exact ⟨[92#8, 64#8], .one (.esc (by decide) (by decide)), by decide⟩
      | neg h => exact ⟨_, .neg h, by simpa using cls h⟩
      | negGap => exact ⟨_, .negGap, by decide⟩
      | star => exact ⟨_, .star, by decide⟩
      | plus => exact ⟨_, .plus, by decide⟩
      | percent => exact ⟨_, .percent, by decide⟩
      | number h => exact ⟨_, .percent, by decide⟩
      | gap => exact ⟨_, .gap, by decide⟩
      | eot => exact ⟨_, .eot, by decide⟩
    obtain ⟨w', k1, k2⟩ := key
    exact ⟨w' ++ re', .cons h1 h2 k1 i1, .cons k1 i2, by simp [k2, i3]⟩

theorem twin_parts {toks : List ETok} {re re' : List Byte} (h : Twin toks re re') : EPattern toks re ∧ Pattern (toks.map ETok.plain) re' := by
  induction h with
  | nil => exact ⟨.nil, .nil⟩
  | cons h1 h2 h3 _ ih => exact ⟨.cons h1 h2 ih.1, .cons h3 ih.2⟩

theorem twin_nil {toks : List ETok} {re re' : List Byte} (h : Twin toks re re') : re = [] ↔ re' = [] := by
  cases h with
  | nil => simp
  | cons h1 h2 h3 => simp [eSpells_ne h1, spells_ne h3]

theorem twin_special {toks : List ETok} {re re' : List Byte} {x : Byte} (h : Twin toks re re') (hs : x ∈ [35#8, 36#8, 42#8])
    (hx : re.headD 0#8 = x ∨ re'.headD 0#8 = x) :
    ∃ ts u u', re = x :: u ∧ re' = x :: u' ∧ Twin ts u u' := by
  cases h with
  | nil => simp at hx; subst hx; exact absurd hs (by decide)
  | @cons t w w' ts re re' h1 h2 h3 h4 =>
    rcases hx with hx | hx
    · obtain ⟨e1, e2⟩ := eSpells_special h1 hx hs
      have e3 : w' = [x] := by
        rcases e2 with ⟨rfl, rfl⟩ | ⟨rfl, rfl⟩ | ⟨rfl, rfl⟩ <;> (cases h3; rfl)
      exact ⟨ts, re, re', by rw [e1]; rfl, by rw [e3]; rfl, h4⟩
    · obtain ⟨e1, e2⟩ := spells_head h3 hx hs
      have e3 : w = [x] := by
        rcases e2 with ⟨e, rfl⟩ | ⟨e, rfl⟩ | ⟨e, rfl⟩ <;> (cases h1 <;> first | rfl | cases e)
      exact ⟨ts, re, re', by rw [e3]; rfl, by rw [e1]; rfl, h4⟩

theorem str_head_zero {m : Mem} {p : Nat} {s : List Byte} (h : m.IsStr p s) : s.headD 0#8 = 0#8 ↔ s = [] := by
  cases s with
  | nil => simp
  | cons b s => simpa using (isStr_cons.1 h).2.1

variable {m' : Mem}

theorem twin_end {toks : List ETok} {re re' : List Byte} {rp rp' : Nat} (h : Twin toks re re') (hr : m.IsStr rp re) (hr' : m'.IsStr rp' re') :
    ∃ r, matchEnd m rp = .ok r ∧ matchEnd m' rp' = .ok r := by
  have key : ∀ {toks : List ETok} {re re' : List Byte} {rp rp' : Nat}, Twin toks re re' → m.IsStr rp re → m'.IsStr rp' re' →
      ∃ r, (do
        let c ← m.load rp
        if c = 0#8 then pure 1
        else if c = 42#8 then do
          let d ← m.load (rp + 1)
          if d = 0#8 then pure 1 else pure 0
        else pure 0) = Res.ok r ∧ (do
        let c ← m'.load rp'
        if c = 0#8 then pure 1
        else if c = 42#8 then do
          let d ← m'.load (rp' + 1)
          if d = 0#8 then pure 1 else pure 0
        else pure 0) = Res.ok (r : Nat) := by
    intro toks re re' rp rp' h hr hr'
    rw [isStr_first hr, isStr_first hr']
    simp only [Res.ok_bind, str_head_zero hr, str_head_zero hr', twin_nil h]
    split
    · exact ⟨_, rfl, rfl⟩
    · by_cases h42 : re.headD 0#8 = 42#8 ∨ re'.headD 0#8 = 42#8
      · obtain ⟨ts, u, u', rfl, rfl, h4⟩ := twin_special h (by decide) h42
        simp only [List.headD_cons, if_true]
        rw [isStr_first (isStr_cons.1 hr).2.2, isStr_first (isStr_cons.1 hr').2.2]
        simp only [Res.ok_bind, str_head_zero (isStr_cons.1 hr).2.2, str_head_zero (isStr_cons.1 hr').2.2, twin_nil h4]
        split <;> exact ⟨_, rfl, rfl⟩
      · simp only [not_or] at h42
        rw [if_neg h42.1, if_neg h42.2]
        exact ⟨_, rfl, rfl⟩
  unfold matchEnd
  rw [isStr_first hr, isStr_first hr']
  simp only [Res.ok_bind]
  by_cases h35 : re.headD 0#8 = 35#8 ∨ re'.headD 0#8 = 35#8
  · obtain ⟨ts, u, u', rfl, rfl, h4⟩ := twin_special h (by decide) h35
    simp only [List.headD_cons, true_or, if_true]
    exact key h4 (isStr_cons.1 hr).2.2 (isStr_cons.1 hr').2.2
  · by_cases h36 : re.headD 0#8 = 36#8 ∨ re'.headD 0#8 = 36#8
    · obtain ⟨ts, u, u', rfl, rfl, h4⟩ := twin_special h (by decide) h36
      simp only [List.headD_cons, or_true, if_true]
      exact key h4 (isStr_cons.1 hr).2.2 (isStr_cons.1 hr').2.2
    · simp only [not_or] at h35 h36
      rw [if_neg (fun h => h.elim h35.1 h36.1), if_neg (fun h => h.elim h35.2 h36.2)]
      exact key h hr hr'

/-- The same answer. -/
def Agree (x : Res ExtOut) (y : Res (Nat × Option TextMatch)) : Prop := ∃ r st cs st', x = .ok (r, st, cs) ∧ y = .ok (r, st')

theorem agree_pure (r : Nat) (st st' : Option TextMatch) (cs : List MCall) : Agree (pure (r, st, cs)) (pure (r, st')) := ⟨_, _, _, _, rfl, rfl⟩
theorem agree_ok (r : Nat) (st st' : Option TextMatch) (cs : List MCall) : Agree (.ok (r, st, cs)) (.ok (r, st')) := ⟨_, _, _, _, rfl, rfl⟩
theorem agree_out (r : Nat) (x : Option TextMatch × List MCall) (st' : Option TextMatch) : Agree (pure (r, x)) (pure (r, st')) :=
  ⟨_, _, _, _, rfl, rfl⟩

theorem starLoop_agree {toks : List ETok} {re re' : List Byte} {rp rp' : Nat} (h : Twin toks re re') (hr : m.IsStr rp re) (hr' : m'.IsStr rp' re')
    {full : List Byte}
    (ih : ∀ {s : List Byte} {text text' : Nat} {st st' : Option TextMatch} {calls : List MCall}, m.IsStr text s → m'.IsStr text' s → s <:+ full →
      Agree (extLoop m pm pc text rp 0 st calls) (matchLoop m' text' rp' st')) (n : Nat) (mp mp' : Option Nat) :
    ∀ {s : List Byte} {text text' : Nat} {b : Byte} {st st' : Option TextMatch} {calls : List MCall}, m.IsStr text (b :: s) → m'.IsStr text' (b :: s) →
      b :: s <:+ full → Agree (extStarLoop m pm pc text rp st calls false n mp) (starLoop m' text' rp' st' false mp') := by
  intro s
  induction s with
  | nil =>
    intro text text' b st st' calls ht ht' hf
    rw [starLoop, match_, extStarLoop, matchExt]
    obtain ⟨r, st1, cs, st2, hx, hy⟩ := ih (st := st.map fun q => { q with len := 0 }) (st' := st'.map fun q => { q with len := 0 }) (calls := calls) ht ht' hf
    rw [hx, hy]
    simp only [Res.ok_bind]
    split
    · exact agree_out _ _ _
    · rw [isStr_first (isStr_cons.1 ht).2.2, isStr_first (isStr_cons.1 ht').2.2]
      simp only [Res.ok_bind, List.headD_nil, if_true]
      rw [isStr_first hr, isStr_first hr']
      simp only [Res.ok_bind]
      have go : ∀ {x : Byte}, x ∈ [35#8, 36#8, 42#8] → x = 35#8 ∨ x = 36#8 → (re.headD 0#8 = x ∨ re'.headD 0#8 = x) →
          Agree (if re.headD 0#8 = 35#8 ∨ re.headD 0#8 = 36#8 then do
            let d ← m.load (rp + 1)
            if d = 0#8 then pure (xorNeg false 1, extReport pm n mp (text + 1) st1 cs) else pure (xorNeg false 0, st1, cs)
          else pure (xorNeg false 0, st1, cs))
          (if re'.headD 0#8 = 35#8 ∨ re'.headD 0#8 = 36#8 then do
            let d ← m'.load (rp' + 1)
            if d = 0#8 then pure (xorNeg false 1, setMatch st2 mp' (text' + 1)) else pure (xorNeg false 0, st2)
          else pure (xorNeg false 0, st2)) := by
        intro x hs h2 hx
        obtain ⟨ts, u, u', rfl, rfl, h4⟩ := twin_special h hs hx
        simp only [List.headD_cons, h2, if_true]
        rw [isStr_first (isStr_cons.1 hr).2.2, isStr_first (isStr_cons.1 hr').2.2]
        simp only [Res.ok_bind, str_head_zero (isStr_cons.1 hr).2.2, str_head_zero (isStr_cons.1 hr').2.2, twin_nil h4]
        split
        · exact agree_out _ _ _
        · exact agree_out _ _ _
      by_cases h35 : re.headD 0#8 = 35#8 ∨ re'.headD 0#8 = 35#8
      · exact go (by decide) (Or.inl rfl) h35
      · by_cases h36 : re.headD 0#8 = 36#8 ∨ re'.headD 0#8 = 36#8
        · exact go (by decide) (Or.inr rfl) h36
        · simp only [not_or] at h35 h36
          rw [if_neg (fun h => h.elim h35.1 h36.1), if_neg (fun h => h.elim h35.2 h36.2)]
          exact agree_out _ _ _
  | cons c s ihs =>
    intro text text' b st st' calls ht ht' hf
    rw [starLoop, match_, extStarLoop, matchExt]
    obtain ⟨r, st1, cs, st2, hx, hy⟩ := ih (st := st.map fun q => { q with len := 0 }) (st' := st'.map fun q => { q with len := 0 }) (calls := calls) ht ht' hf
    rw [hx, hy]
    simp only [Res.ok_bind]
    split
    · exact agree_out _ _ _
    · have ht2 := (isStr_cons.1 ht).2.2
      have ht2' := (isStr_cons.1 ht').2.2
      rw [isStr_first ht2, isStr_first ht2']
      simp only [Res.ok_bind, List.headD_cons]
      rw [if_neg (isStr_cons.1 ht2).2.1, if_neg (isStr_cons.1 ht2).2.1]
      exact ihs ht2 ht2' ((List.suffix_cons _ _).trans hf)

theorem star_agree {toks : List ETok} {re re' : List Byte} {rp rp' : Nat} (h : Twin toks re re') (hr : m.IsStr rp re) (hr' : m'.IsStr rp' re')
    {full : List Byte}
    (ih : ∀ {s : List Byte} {text text' : Nat} {st st' : Option TextMatch} {calls : List MCall}, m.IsStr text s → m'.IsStr text' s → s <:+ full →
      Agree (extLoop m pm pc text rp 0 st calls) (matchLoop m' text' rp' st')) (n : Nat) (mp mp' : Option Nat)
    {s : List Byte} {text text' : Nat} {b : Byte} {st st' : Option TextMatch} {calls : List MCall} (ht : m.IsStr text (b :: s)) (ht' : m'.IsStr text' (b :: s))
    (hf : b :: s <:+ full) : Agree (extStar m pm pc text rp st calls false n mp) (matchStar m' text' rp' st' false mp') := by
  rw [matchStar, extStar, isStr_first hr, isStr_first hr']
  simp only [Res.ok_bind, str_head_zero hr, str_head_zero hr', twin_nil h]
  split
  · rw [textEnd_eq ht, textEnd_eq ht']
    simp only [Res.ok_bind]
    split <;> split <;> exact agree_out _ _ _
  · exact starLoop_agree h hr hr' ih n mp mp' ht ht' hf

theorem one_agree {x y : Res ExtOut} {x' y' : Res (Nat × Option TextMatch)} {b : Byte} {neg : Bool} {c : CClass} {st st' : Option TextMatch}
    {calls : List MCall} (e : y = if (neg ^^ c.has b) = true then x else .ok (0, st, calls))
    (e' : y' = if (neg ^^ c.has b) = true then x' else .ok (0, st')) (h : Agree x x') : Agree y y' := by
  rw [e, e']
  split
  · exact h
  · exact agree_ok _ _ _ _

theorem extLoop_agree {toks : List ETok} {re re' : List Byte} (hp : Twin toks re re') :
    ∀ {s : List Byte} {text text' rp rp' : Nat} {st st' : Option TextMatch} {calls : List MCall}, m.IsStr text s → m'.IsStr text' s → m.IsStr rp re →
      m'.IsStr rp' re' → (∀ t ∈ toks, extOkFor s t) → Agree (extLoop m pm pc text rp 0 st calls) (matchLoop m' text' rp' st') := by
  have atEnd : ∀ {toks : List ETok} {re re' : List Byte}, Twin toks re re' → ∀ {text text' rp rp' : Nat} {st st' : Option TextMatch} {calls : List MCall},
      m.IsStr text [] → m'.IsStr text' [] → m.IsStr rp re → m'.IsStr rp' re' →
      Agree (extLoop m pm pc text rp 0 st calls) (matchLoop m' text' rp' st') := by
    intro toks re re' hp text text' rp rp' st st' calls ht ht' hr hr'
    rw [extLoop_nil ht, matchLoop, isStr_first ht']
    simp only [Res.ok_bind, List.headD_nil, if_true]
    obtain ⟨r, h1, h2⟩ := twin_end hp hr hr'
    rw [h1, h2]
    exact agree_pure _ _ _ _
  induction hp with
  | nil =>
    intro s text text' rp rp' st st' calls ht ht' hr hr' hok
    cases s with
    | nil => exact atEnd .nil ht ht' hr hr'
    | cons b s =>
      rw [extLoop_plain ht hr (by simp) (by simp) (by simp) (by simp), List.headD_nil, ext_step_nil, step_nil ht' hr']
      exact agree_ok _ _ _ _
  | @cons t w w' toks re re' hw hd hw' hp ih =>
    intro s text text' rp rp' st st' calls ht ht' hr hr' hok
    cases s with
    | nil => exact atEnd (.cons hw hd hw' hp) ht ht' hr hr'
    | cons b s =>
      have ht2 := (isStr_cons.1 ht).2.2
      have hb0 := (isStr_cons.1 ht).2.1
      have ht2' := (isStr_cons.1 ht').2.2
      have hr2 := isStr_tail hr
      have hr2' := isStr_tail hr'
      have hsuf : ∀ {s' : List Byte}, s' <:+ b :: s → ∀ t' ∈ toks, extOkFor s' t' := by
        intro s' h t' ht'
        obtain ⟨u, e⟩ := h
        have := hok t' (List.mem_cons_of_mem _ ht')
        rw [← e] at this
        clear e hok ht'
        induction u with
        | nil => exact this
        | cons x u ihu => exact ihu (extOkFor_tail this)
      have star : ∀ {s' : List Byte} {text1 text1' : Nat} {st1 st1' : Option TextMatch} {calls' : List MCall}, m.IsStr text1 s' → m'.IsStr text1' s' →
          s' <:+ b :: s → Agree (extLoop m pm pc text1 (rp + w.length) 0 st1 calls') (matchLoop m' text1' (rp' + w'.length) st1') :=
        fun h1 h2 h3 => ih h1 h2 hr2 hr2' (hsuf h3)
      have go := star (st1 := st) (st1' := st') (calls' := calls) ht2 ht2' (List.suffix_cons b s)
      have enter : w.headD 0#8 ≠ 33#8 → extLoop m pm pc text rp 0 st calls = extStep m pm pc text rp 0 false 0 st calls b ((w ++ re).headD 0#8) := by
        intro h33
        have hh := eSpells_head (re := re) hw
        have hne := eSpells_ne hw
        exact extLoop_plain ht hr (by cases w with
          | nil => exact absurd rfl hne
          | cons c w => exact h33) hh.1 hh.2.1 hh.2.2
      cases hw with
      | @one c _ h hx =>
        have h33 := spellsC_head (re := []) h
        rw [List.append_nil] at h33
        exact one_agree ((enter h33).trans (ext_step_class h hx ht hr (hok (.one false c) (by simp)))) (step_one hw' ht' hr' (hok (.one false c) (by simp))) go
      | at_ => exact one_agree ((enter (by simp)).trans (ext_step_at hb0)) (step_one hw' ht' hr' trivial) go
      | @neg c w h hx =>
        have hh := eSpells_head (re := re) (ESpells.one h hx)
        rw [List.cons_append] at hr
        refine one_agree ((extLoop_neg ht hr hh.1 hh.2.1 hh.2.2).trans (ext_step_class h hx ht (isStr_cons.1 hr).2.2 (hok (.one true c) (by simp))))
          (step_one hw' ht' hr' (hok (.one true c) (by simp))) ?_
        rwa [List.length_cons, ← Nat.add_assoc, Nat.add_right_comm] at go
      | negGap =>
        rw [List.cons_append] at hr
        exact one_agree (c := .space) ((extLoop_neg ht hr (by simp) (by simp) (by simp)).trans
          (by simp only [List.singleton_append, List.headD_cons]; exact ext_step_gap)) (step_one hw' ht' hr' trivial) go
      | star =>
        cases hw'
        rw [enter (by simp)]
        simp only [List.singleton_append, List.headD_cons]
        rw [ext_step_star, step_star ht' hr']
        exact star_agree hp hr2 hr2' star 0 none none ht ht' (List.suffix_refl _)
      | plus =>
        cases hw'
        rw [enter (by simp)]
        simp only [List.singleton_append, List.headD_cons]
        rw [ext_step_plus ht, step_plus ht' hr']
        split
        · exact agree_ok _ _ _ _
        · cases s with
          | nil => contradiction
          | cons c s => exact star_agree hp hr2 hr2' star 0 none none ht2 ht2' (List.suffix_cons _ _)
      | percent =>
        cases hw'
        rw [enter (by simp)]
        simp only [List.singleton_append, List.headD_cons]
        rw [ext_step_percent ht (extDigit_none hr (hd rfl)), step_percent ht' hr']
        split
        · exact agree_ok _ _ _ _
        · cases s with
          | nil => contradiction
          | cons c s => exact star_agree hp hr2 hr2' star 0 _ _ ht2 ht2' (List.suffix_cons _ _)
      | @number k hk =>
        cases hw'
        rw [enter (by simp)]
        simp only [List.cons_append, List.nil_append, List.headD_cons]
        rw [ext_step_percent ht (extDigit_some hr hk), step_percent ht' hr']
        split
        · exact agree_ok _ _ _ _
        · cases s with
          | nil => contradiction
          | cons c s => exact star_agree hp hr2 hr2' star k _ _ ht2 ht2' (List.suffix_cons _ _)
      | gap =>
        cases hw'
        rw [enter (by simp)]
        simp only [List.singleton_append, List.headD_cons]
        rw [ext_step_gap, step_gap ht' hr', Bool.false_xor]
        split
        · exact go
        · exact agree_ok _ _ _ _
      | eot =>
        cases hw'
        have hb : b ≠ 36#8 := by
          have := hok .eot (by simp)
          simp only [extOkFor, List.mem_cons, not_or] at this
          exact fun e => this.1 e.symm
        rw [enter (by simp)]
        simp only [List.singleton_append, List.headD_cons]
        rw [ext_step_eot hb, step_eot ht' hr' hb]
        exact agree_ok _ _ _ _

end

end Minilib

import Verif.Model.Match
import Verif.Spec.Match
import Verif.Lemmas.Str
/-
Lemmas for C52: single steps of the matching engine.
-/

set_option autoImplicit false

namespace Minilib
open Mem Spec

theorem isStr_tail {m : Mem} {p : Nat} {w s : List Byte} (h : m.IsStr p (w ++ s)) : m.IsStr (p + w.length) s := by
  obtain ⟨h1, h2⟩ := isStr_iff.1 h
  rw [List.append_assoc] at h1
  exact isStr_iff.2 ⟨(holds_append.1 h1).2, fun b hb => h2 b (by simp [hb])⟩

theorem isStr_first {m : Mem} {p : Nat} {s : List Byte} (h : m.IsStr p s) : m.load p = .ok (s.headD 0#8) := by
  cases s with
  | nil => exact load_some (isStr_nil.1 h)
  | cons b s => exact load_some (isStr_cons.1 h).1

theorem isspace_ext (t : Byte) : isspace (t.signExtend 32) = isSpaceChar t := by
  revert t; decide +kernel
theorem isdigit_ext (t : Byte) : isdigit (t.signExtend 32) = (decide (48 ≤ t.toNat) && decide (t.toNat ≤ 57)) := by
  revert t; decide +kernel

theorem classFind_eq {m : Mem} {t : Byte} : ∀ {l rest : List Byte} {p : Nat}, m.IsStr p (l ++ 93#8 :: rest) → 93#8 ∉ l → t ≠ 93#8 →
    (t ∈ l → ∃ u v, l = u ++ t :: v ∧ classFind m t p = .ok (some (p + u.length))) ∧ (t ∉ l → classFind m t p = .ok none)
  | [], rest, p, h, _, ht => by
    obtain ⟨h1, _, _⟩ := isStr_cons.1 h
    refine ⟨by simp, fun _ => ?_⟩
    rw [classFind, load_some h1]
    simp only [Res.ok_bind]
    rw [if_neg (by rintro (h | h); cases h; exact ht h.symm), if_true]
    rfl
  | c :: l, rest, p, h, hl, ht => by
    obtain ⟨h1, h2, h3⟩ := isStr_cons.1 h
    simp only [List.mem_cons, not_or] at hl
    obtain ⟨ih1, ih2⟩ := classFind_eq (t := t) h3 hl.2 ht
    have step : c ≠ t → classFind m t p = classFind m t (p + 1) := by
      intro hct
      conv => lhs; rw [classFind]
      rw [load_some h1]
      simp only [Res.ok_bind]
      rw [if_neg (by rintro (h | h); exact h2 h; exact hct h), if_neg (fun e => hl.1 e.symm)]
    by_cases hct : c = t
    · subst hct
      refine ⟨fun _ => ⟨[], l, rfl, ?_⟩, fun h => absurd (by simp) h⟩
      rw [classFind, load_some h1]
      simp
    · refine ⟨fun hm => ?_, fun hm => ?_⟩
      · simp only [List.mem_cons] at hm
        obtain ⟨u, v, e1, e2⟩ := ih1 (hm.resolve_left (fun e => hct e.symm))
        refine ⟨c :: u, v, by rw [e1]; rfl, ?_⟩
        rw [step hct, e2, List.length_cons]
        congr 2
        omega
      · simp only [List.mem_cons, not_or] at hm
        rw [step hct, ih2 hm.2]

theorem classEnd_eq {m : Mem} : ∀ {l rest : List Byte} {p : Nat}, m.IsStr p (l ++ 93#8 :: rest) → 93#8 ∉ l →
    classEnd m p = .ok (p + l.length)
  | [], rest, p, h, _ => by
    obtain ⟨h1, _, _⟩ := isStr_cons.1 h
    rw [classEnd, load_some h1]
    simp
  | c :: l, rest, p, h, hl => by
    obtain ⟨h1, h2, h3⟩ := isStr_cons.1 h
    simp only [List.mem_cons, not_or] at hl
    rw [classEnd, load_some h1]
    simp only [Res.ok_bind]
    rw [if_neg (by rintro (h | h); exact h2 h; exact hl.1 h.symm), classEnd_eq h3 hl.2, List.length_cons]
    congr 1
    omega

theorem textEnd_eq {m : Mem} : ∀ {s : List Byte} {p : Nat}, m.IsStr p s → textEnd m p = .ok (p + s.length)
  | [], p, h => by
    rw [textEnd, load_some (isStr_nil.1 h)]
    rfl
  | b :: s, p, h => by
    obtain ⟨h1, h2, h3⟩ := isStr_cons.1 h
    rw [textEnd, load_some h1]
    simp only [Res.ok_bind]
    rw [if_neg h2, textEnd_eq h3, List.length_cons]
    congr 1
    omega

/-- The beginning of a round for a nonempty text. -/
theorem matchLoop_cons {m : Mem} {text rp : Nat} {b : Byte} {s re : List Byte} {st : Option TextMatch} (ht : m.IsStr text (b :: s)) (hr : m.IsStr rp re)
    (h33 : re.headD 0#8 ≠ 33#8) : matchLoop m text rp st = matchStep m text rp st b (re.headD 0#8) false := by
  obtain ⟨h1, h2, _⟩ := isStr_cons.1 ht
  rw [matchLoop, load_some h1]
  simp only [Res.ok_bind]
  rw [if_neg h2, isStr_first hr]
  simp only [Res.ok_bind]
  rw [if_neg h33]

theorem matchLoop_neg {m : Mem} {text rp : Nat} {b : Byte} {s re : List Byte} {st : Option TextMatch} (ht : m.IsStr text (b :: s))
    (hr : m.IsStr rp (33#8 :: re)) : matchLoop m text rp st = matchStep m text (rp + 1) st b (re.headD 0#8) true := by
  obtain ⟨h1, h2, _⟩ := isStr_cons.1 ht
  obtain ⟨g1, _, g3⟩ := isStr_cons.1 hr
  rw [matchLoop, load_some h1]
  simp only [Res.ok_bind]
  rw [if_neg h2, load_some g1]
  simp only [Res.ok_bind]
  rw [if_true, isStr_first g3]
  rfl

/-- What is assumed of the text for a part of the pattern. -/
def okFor (s : List Byte) : Tok → Prop
  | .one neg (.set _) => neg = false ∧ 93#8 ∉ s
  | .one _ .word => ∀ b ∈ s, b.toNat < 127
  | .one _ .nonword => ∀ b ∈ s, b.toNat < 127
  | .eot => 36#8 ∉ s
  | _ => True

theorem word_small (b : Byte) (h : b.toNat < 127) (neg : Bool) :
    ((neg ^^ (decide (32 ≤ b.toInt) && decide (b.toInt ≤ 126))) || decide (160 ≤ b.toInt)) = (neg ^^ CClass.word.has b) ∧
    ((neg ^^ decide (b.toInt < 32)) || (decide (126 < b.toInt) && decide (b.toInt < 160))) = (neg ^^ CClass.nonword.has b) := by
  have : ∀ b : Byte, b.toNat < 127 → ∀ neg : Bool,
    ((neg ^^ (decide (32 ≤ b.toInt) && decide (b.toInt ≤ 126))) || decide (160 ≤ b.toInt)) = (neg ^^ CClass.word.has b) ∧
    ((neg ^^ decide (b.toInt < 32)) || (decide (126 < b.toInt) && decide (b.toInt < 160))) = (neg ^^ CClass.nonword.has b) := by
    decide +kernel
  exact this b h neg

theorem escape_letter {m : Mem} {text rp : Nat} {b : Byte} {s : List Byte} {st : Option TextMatch} {x : Byte} {re : List Byte} {neg v : Bool}
    (hr : m.IsStr rp (92#8 :: x :: re)) (he : escapeClass neg x b = some v) :
    matchStep m text rp st b 92#8 neg = if v = true then matchLoop m (text + 1) (rp + 2) st else .ok (0, st) := by
  obtain ⟨_, _, g3⟩ := isStr_cons.1 hr
  obtain ⟨g1, _, _⟩ := isStr_cons.1 g3
  rw [matchStep, if_neg (by decide), if_neg (by decide), if_neg (by decide), if_neg (by decide), if_neg (by decide), if_neg (by decide),
    if_neg (by decide), if_pos rfl, load_some g1]
  simp only [Res.ok_bind]
  rw [he]
  cases v <;> rfl

theorem step_class {m : Mem} {text rp : Nat} {b : Byte} {s re w : List Byte} {st : Option TextMatch} {c : CClass} {neg : Bool} (hw : SpellsC c w)
    (ht : m.IsStr text (b :: s)) (hr : m.IsStr rp (w ++ re)) (hok : okFor (b :: s) (.one neg c)) :
    matchStep m text rp st b ((w ++ re).headD 0#8) neg = if (neg ^^ c.has b) = true then matchLoop m (text + 1) (rp + w.length) st else .ok (0, st) := by
  have hb0 : b ≠ 0#8 := (isStr_cons.1 ht).2.1
  cases hw with
  | @plain x hx0 hxs =>
    simp only [special, List.mem_cons, List.not_mem_nil, or_false, not_or] at hxs
    obtain ⟨x1, x2, x3, x4, x5, x6, x7, x8, x9, x10⟩ := hxs
    simp only [List.singleton_append, List.headD_cons, List.length_singleton]
    rw [matchStep, if_neg x2, if_neg x3, if_neg x4, if_neg x5, if_neg x6, if_neg x7, if_neg x8, if_neg x9, if_neg hx0]
    simp only [CClass.has]
    cases neg <;> by_cases h : x = b <;> simp [h] <;> rfl
  | @esc x hx0 hxl =>
    simp only [escLetters, List.mem_cons, List.not_mem_nil, or_false, not_or] at hxl
    obtain ⟨x1, x2, x3, x4, x5, x6⟩ := hxl
    simp only [List.cons_append, List.nil_append, List.headD_cons, List.length_cons, List.length_nil]
    obtain ⟨_, _, g3⟩ := isStr_cons.1 hr
    obtain ⟨g1, _, _⟩ := isStr_cons.1 g3
    rw [matchStep, if_neg (by decide), if_neg (by decide), if_neg (by decide), if_neg (by decide), if_neg (by decide), if_neg (by decide),
      if_neg (by decide), if_pos rfl, load_some g1]
    simp only [Res.ok_bind]
    have he : escapeClass neg x b = none := by simp [escapeClass, x1, x2, x3, x4, x5, x6]
    rw [he]
    simp only
    rw [if_neg hx0]
    simp only [CClass.has]
    cases neg <;> by_cases h : x = b <;> simp [h] <;> rfl
  | any =>
    simp only [List.singleton_append, List.headD_cons, List.length_singleton]
    rw [matchStep, if_pos rfl]
    cases neg <;> simp [CClass.has] <;> rfl
  | @set l h0 h93 =>
    obtain ⟨rfl, h93s⟩ := hok
    simp only [List.cons_append, List.append_assoc, List.nil_append, List.headD_cons, List.length_cons, List.length_append, List.length_nil] at hr ⊢
    obtain ⟨_, _, g3⟩ := isStr_cons.1 hr
    have hb93 : b ≠ 93#8 := by rintro rfl; simp at h93s
    obtain ⟨f1, f2⟩ := classFind_eq (t := b) g3 h93 hb93
    rw [matchStep, if_neg (by decide), if_pos rfl]
    by_cases hm : b ∈ l
    · obtain ⟨u, v, e1, e2⟩ := f1 hm
      rw [e2]
      simp only [Res.ok_bind]
      subst e1
      rw [List.append_assoc] at g3
      have g4 := isStr_tail g3
      rw [classEnd_eq (l := b :: v) (rest := re) g4 (fun h => h93 (by simp only [List.mem_append]; exact Or.inr h))]
      simp only [Res.ok_bind]
      have g5 := isStr_tail (w := b :: v) g4
      rw [load_some (isStr_cons.1 g5).1]
      simp only [Res.ok_bind]
      rw [if_neg (by decide), if_neg (by decide), if_pos (by simp [CClass.has])]
      congr 1
      simp only [List.length_append, List.length_cons]
      omega
    · rw [f2 hm]
      simp only [Res.ok_bind]
      rw [if_neg (by simp [CClass.has, hm])]
      rfl
  | digit => exact escape_letter (s := s) hr (by simp [escapeClass, isdigit_ext, CClass.has])
  | nondigit => exact escape_letter (s := s) hr (by simp [escapeClass, isdigit_ext, CClass.has])
  | space => exact escape_letter (s := s) hr (by simp [escapeClass, isspace_ext, CClass.has])
  | nonspace => exact escape_letter (s := s) hr (by simp [escapeClass, isspace_ext, CClass.has])
  | word =>
    refine escape_letter (s := s) hr ?_
    rw [← (word_small b (hok b (by simp)) neg).1]
    simp [escapeClass]
  | nonword =>
    refine escape_letter (s := s) hr ?_
    rw [← (word_small b (hok b (by simp)) neg).2]
    simp [escapeClass]

theorem spellsC_head {c : CClass} {w re : List Byte} (h : SpellsC c w) : (w ++ re).headD 0#8 ≠ 33#8 := by
  cases h with
  | @plain x hx0 hxs =>
    rintro e
    apply hxs
    simp only [List.singleton_append, List.headD_cons] at e
    rw [e]; decide
  | _ => simp

/-- One character of the text against a part of the pattern which stands for one character. -/
theorem step_one {m : Mem} {text rp : Nat} {b : Byte} {s re w : List Byte} {st : Option TextMatch} {c : CClass} {neg : Bool} (hw : Spells (.one neg c) w)
    (ht : m.IsStr text (b :: s)) (hr : m.IsStr rp (w ++ re)) (hok : okFor (b :: s) (.one neg c)) :
    matchLoop m text rp st = if (neg ^^ c.has b) = true then matchLoop m (text + 1) (rp + w.length) st else .ok (0, st) := by
  cases hw with
  | one h => rw [matchLoop_cons ht hr (spellsC_head h), step_class h ht hr hok]
  | @neg _ w h =>
    rw [List.cons_append] at hr
    rw [matchLoop_neg ht hr, step_class h ht (isStr_cons.1 hr).2.2 hok, List.length_cons, show rp + 1 + w.length = rp + (w.length + 1) by omega]
  | negGap =>
    rw [List.cons_append] at hr
    rw [matchLoop_neg ht hr]
    simp only [List.cons_append, List.nil_append, List.headD_cons]
    rw [matchStep, if_neg (by decide), if_neg (by decide), if_pos rfl, isspace_ext]
    rfl
  | negBol =>
    rw [List.cons_append] at hr
    rw [matchLoop_neg ht hr]
    simp only [List.cons_append, List.nil_append, List.headD_cons]
    rw [matchStep, if_neg (by decide), if_neg (by decide), if_neg (by decide), if_pos rfl]
    rfl

theorem step_gap {m : Mem} {text rp : Nat} {b : Byte} {s re : List Byte} {st : Option TextMatch} (ht : m.IsStr text (b :: s)) (hr : m.IsStr rp (35#8 :: re)) :
    matchLoop m text rp st = if isSpaceChar b = true then matchLoop m (text + 1) (rp + 1) st else .ok (0, st) := by
  rw [matchLoop_cons ht hr (by simp)]
  simp only [List.headD_cons]
  rw [matchStep, if_neg (by decide), if_neg (by decide), if_pos rfl, isspace_ext, Bool.false_xor]
  rfl

theorem step_bol {m : Mem} {text rp : Nat} {b : Byte} {s re : List Byte} {st : Option TextMatch} (ht : m.IsStr text (b :: s)) (hr : m.IsStr rp (64#8 :: re)) :
    matchLoop m text rp st = if b = 10#8 then matchLoop m (text + 1) (rp + 1) st else .ok (0, st) := by
  rw [matchLoop_cons ht hr (by simp)]
  simp only [List.headD_cons]
  rw [matchStep, if_neg (by decide), if_neg (by decide), if_neg (by decide), if_pos rfl, Bool.false_xor]
  simp only [decide_eq_true_eq]
  rfl

theorem step_eot {m : Mem} {text rp : Nat} {b : Byte} {s re : List Byte} {st : Option TextMatch} (ht : m.IsStr text (b :: s)) (hr : m.IsStr rp (36#8 :: re))
    (hb : b ≠ 36#8) : matchLoop m text rp st = .ok (0, st) := by
  rw [matchLoop_cons ht hr (by simp)]
  simp only [List.headD_cons]
  rw [matchStep]
  repeat rw [if_neg (by decide)]
  rw [if_pos (by simp; exact fun e => hb e.symm)]
  rfl

theorem step_nil {m : Mem} {text rp : Nat} {b : Byte} {s : List Byte} {st : Option TextMatch} (ht : m.IsStr text (b :: s)) (hr : m.IsStr rp []) :
    matchLoop m text rp st = .ok (0, st) := by
  rw [matchLoop_cons ht hr (by decide)]
  simp only [List.headD_nil]
  rw [matchStep]
  repeat rw [if_neg (by decide)]
  rw [if_pos rfl]
  rfl

theorem step_star {m : Mem} {text rp : Nat} {b : Byte} {s re : List Byte} {st : Option TextMatch} (ht : m.IsStr text (b :: s)) (hr : m.IsStr rp (42#8 :: re)) :
    matchLoop m text rp st = matchStar m text (rp + 1) st false none := by
  rw [matchLoop_cons ht hr (by simp)]
  simp only [List.headD_cons]
  rw [matchStep]
  repeat rw [if_neg (by decide)]
  rw [if_pos rfl]

theorem step_plus {m : Mem} {text rp : Nat} {b : Byte} {s re : List Byte} {st : Option TextMatch} (ht : m.IsStr text (b :: s)) (hr : m.IsStr rp (43#8 :: re)) :
    matchLoop m text rp st = if s = [] then .ok (0, st) else matchStar m (text + 1) (rp + 1) st false none := by
  rw [matchLoop_cons ht hr (by simp)]
  simp only [List.headD_cons]
  rw [matchStep]
  repeat rw [if_neg (by decide)]
  rw [if_pos rfl, isStr_first (isStr_cons.1 ht).2.2]
  simp only [Res.ok_bind]
  cases s with
  | nil => simp [xorNeg]
  | cons c s =>
    rw [List.headD_cons, if_neg (isStr_cons.1 (isStr_cons.1 ht).2.2).2.1, if_neg (by simp)]

theorem step_percent {m : Mem} {text rp : Nat} {b : Byte} {s re : List Byte} {st : Option TextMatch} (ht : m.IsStr text (b :: s)) (hr : m.IsStr rp (37#8 :: re)) :
    matchLoop m text rp st = if s = [] then .ok (0, st) else matchStar m (text + 1) (rp + 1) st false (some text) := by
  rw [matchLoop_cons ht hr (by simp)]
  simp only [List.headD_cons]
  rw [matchStep]
  repeat rw [if_neg (by decide)]
  rw [if_pos rfl, isStr_first (isStr_cons.1 ht).2.2]
  simp only [Res.ok_bind]
  cases s with
  | nil => simp [xorNeg]
  | cons c s =>
    rw [List.headD_cons, if_neg (isStr_cons.1 (isStr_cons.1 ht).2.2).2.1, if_neg (by simp)]

theorem spells_ne {t : Tok} {w : List Byte} (h : Spells t w) : w ≠ [] := by
  cases h with
  | one h => cases h <;> simp
  | _ => simp

theorem pattern_nil {ts : List Tok} {re : List Byte} (h : Pattern ts re) : ts = [] ↔ re = [] := by
  cases h with
  | nil => simp
  | cons h1 h2 => simp [spells_ne h1]

theorem spells_head {t : Tok} {w re : List Byte} {x : Byte} (h : Spells t w) (hx : (w ++ re).headD 0#8 = x) (hs : x ∈ [35#8, 36#8, 42#8]) :
    w = [x] ∧ (t = .gap ∧ x = 35#8 ∨ t = .eot ∧ x = 36#8 ∨ t = .rep 0 false ∧ x = 42#8) := by
  cases h with
  | one h =>
    exfalso
    cases h with
    | @plain y hx0 hxs =>
      simp only [List.singleton_append, List.headD_cons] at hx
      apply hxs
      rw [hx]
      simp only [List.mem_cons, List.not_mem_nil, or_false] at hs
      rcases hs with rfl | rfl | rfl <;> decide
    | _ => (simp at hx; subst hx; revert hs; decide)
  | neg h => (simp at hx; subst hx; exact absurd hs (by decide))
  | _ => (simp at hx; subst hx; revert hs; decide)

/-- The text is at its end. -/
theorem matchEnd_eq {m : Mem} {rp : Nat} {re : List Byte} {ts : List Tok} (hp : Pattern ts re) (hr : m.IsStr rp re) :
    matchEnd m rp = .ok (if ts ∈ [[], [.rep 0 false], [.gap], [.eot], [.gap, .rep 0 false], [.eot, .rep 0 false]] then 1 else 0) := by
  have tailc : ∀ {rp : Nat} {re : List Byte} {ts : List Tok}, Pattern ts re → m.IsStr rp re →
      (do
        let c ← m.load rp
        if c = 0#8 then pure 1
        else if c = 42#8 then do
          let d ← m.load (rp + 1)
          if d = 0#8 then pure 1 else pure 0
        else pure 0) = Res.ok (if ts = [] ∨ ts = [.rep 0 false] then 1 else 0) := by
    intro rp re ts hp hr
    cases hp with
    | nil =>
      rw [load_some (isStr_nil.1 hr)]
      rfl
    | @cons t w ts re h1 h2 =>
      rw [isStr_first hr]
      simp only [Res.ok_bind]
      have hne : (w ++ re).headD 0#8 ≠ 0#8 := by
        cases hw : w ++ re with
        | nil => simp [spells_ne h1] at hw
        | cons x l => rw [hw] at hr; exact (isStr_cons.1 hr).2.1
      rw [if_neg hne]
      by_cases h42 : (w ++ re).headD 0#8 = 42#8
      · rw [if_pos h42]
        obtain ⟨e1, e2⟩ := spells_head h1 h42 (by decide)
        subst e1
        rw [isStr_first (isStr_cons.1 hr).2.2]
        simp only [Res.ok_bind]
        have e3 : t = .rep 0 false := by
          rcases e2 with ⟨_, h⟩ | ⟨_, h⟩ | ⟨h, _⟩
          · cases h
          · cases h
          · exact h
        subst e3
        cases h2 with
        | nil => rfl
        | @cons t' w' ts' re' g1 g2 =>
          have hne' : (w' ++ re').headD 0#8 ≠ 0#8 := by
            cases hw : w' ++ re' with
            | nil => simp [spells_ne g1] at hw
            | cons x l => rw [hw] at hr; exact (isStr_cons.1 (isStr_cons.1 hr).2.2).2.1
          show (if (w' ++ re').headD 0#8 = 0#8 then pure 1 else pure 0) = _
          rw [if_neg hne', if_neg (by simp)]
          rfl
      · rw [if_neg h42, if_neg]
        · rfl
        · simp only [List.cons_ne_nil, List.cons.injEq, false_or, not_and]
          rintro rfl
          cases h1
          simp at h42
  unfold matchEnd
  rw [isStr_first hr]
  simp only [Res.ok_bind]
  by_cases hg : re.headD 0#8 = 35#8 ∨ re.headD 0#8 = 36#8
  · rw [if_pos hg]
    cases hp with
    | nil => simp at hg
    | @cons t w ts re h1 h2 =>
      have : w = [(w ++ re).headD 0#8] ∧ (t = .gap ∨ t = .eot) := by
        rcases hg with hg | hg
        · obtain ⟨e1, e2⟩ := spells_head h1 hg (by decide)
          refine ⟨e1.trans (by rw [hg]), ?_⟩
          rcases e2 with ⟨h, _⟩ | ⟨h, _⟩ | ⟨_, h⟩
          · exact Or.inl h
          · exact Or.inr h
          · cases h
        · obtain ⟨e1, e2⟩ := spells_head h1 hg (by decide)
          refine ⟨e1.trans (by rw [hg]), ?_⟩
          rcases e2 with ⟨h, _⟩ | ⟨h, _⟩ | ⟨_, h⟩
          · exact Or.inl h
          · exact Or.inr h
          · cases h
      obtain ⟨e1, e2⟩ := this
      have hr2 : m.IsStr (rp + 1) re := by
        have := isStr_tail hr
        rw [e1] at this
        exact this
      rw [tailc h2 hr2]
      congr 1
      rcases e2 with rfl | rfl
      · simp
      · simp
  · rw [if_neg hg, tailc hp hr]
    congr 1
    have : ts ≠ [.gap] ∧ ts ≠ [.eot] ∧ ts ≠ [.gap, .rep 0 false] ∧ ts ≠ [.eot, .rep 0 false] := by
      have hh : ∀ t r, ts = t :: r → t ≠ .gap ∧ t ≠ .eot := by
        intro t r e
        subst e
        cases hp with
        | cons h1 h2 =>
          constructor
          · rintro rfl; cases h1; simp at hg
          · rintro rfl; cases h1; simp at hg
      refine ⟨?_, ?_, ?_, ?_⟩
      · intro e; exact (hh _ _ e).1 rfl
      · intro e; exact (hh _ _ e).2 rfl
      · intro e; exact (hh _ _ e).1 rfl
      · intro e; exact (hh _ _ e).2 rfl
    simp [this]

end Minilib

import Verif.Lemmas.Match
/-
C52: `match` accepts the texts which the pattern describes.
-/

set_option autoImplicit false

namespace Minilib
open Mem Spec

/-! ### Every text and every pattern: no undefined behaviour, no endless loop -/

theorem isStr_dropN {m : Mem} {p : Nat} {s : List Byte} (h : m.IsStr p s) {k : Nat} (hk : k ≤ s.length) : m.IsStr (p + k) (s.drop k) := by
  have h' : m.IsStr p (s.take k ++ s.drop k) := by rw [List.take_append_drop]; exact h
  have := isStr_tail h'
  rwa [List.length_take, Nat.min_eq_left hk] at this

theorem classFind_safe {m : Mem} {t : Byte} : ∀ {l : List Byte} {p : Nat}, m.IsStr p l →
    classFind m t p = .ok none ∨ ∃ k, k ≤ l.length ∧ classFind m t p = .ok (some (p + k))
  | [], p, h => by
    right
    refine ⟨0, Nat.le_refl _, ?_⟩
    rw [classFind, load_some (isStr_nil.1 h)]
    simp
  | c :: l, p, h => by
    obtain ⟨h1, h2, h3⟩ := isStr_cons.1 h
    rw [classFind, load_some h1]
    simp only [Res.ok_bind]
    by_cases hc : c = 0#8 ∨ c = t
    · rw [if_pos hc]
      exact Or.inr ⟨0, Nat.zero_le _, rfl⟩
    · rw [if_neg hc]
      by_cases hb : c = 93#8
      · rw [if_pos hb]; exact Or.inl rfl
      · rw [if_neg hb]
        rcases classFind_safe (t := t) h3 with h | ⟨k, hk, h⟩
        · exact Or.inl h
        · refine Or.inr ⟨k + 1, by simp only [List.length_cons]; omega, ?_⟩
          rw [h, Nat.add_assoc, Nat.add_comm 1 k]

theorem classEnd_safe {m : Mem} : ∀ {l : List Byte} {p : Nat}, m.IsStr p l → ∃ k, k ≤ l.length ∧ classEnd m p = .ok (p + k)
  | [], p, h => by
    refine ⟨0, Nat.le_refl _, ?_⟩
    rw [classEnd, load_some (isStr_nil.1 h)]
    simp
  | c :: l, p, h => by
    obtain ⟨h1, h2, h3⟩ := isStr_cons.1 h
    rw [classEnd, load_some h1]
    simp only [Res.ok_bind]
    by_cases hc : c = 0#8 ∨ c = 93#8
    · rw [if_pos hc]
      exact ⟨0, Nat.zero_le _, rfl⟩
    · rw [if_neg hc]
      obtain ⟨k, hk, h⟩ := classEnd_safe h3
      refine ⟨k + 1, by simp only [List.length_cons]; omega, ?_⟩
      rw [h, Nat.add_assoc, Nat.add_comm 1 k]

theorem matchEnd_safe {m : Mem} {re : List Byte} {rp : Nat} (h : m.IsStr rp re) : ∃ r, matchEnd m rp = .ok r := by
  have key : ∀ {re : List Byte} {rp : Nat}, m.IsStr rp re → ∃ r, (do
      let c ← m.load rp
      if c = 0#8 then pure 1
      else if c = 42#8 then do
        let d ← m.load (rp + 1)
        if d = 0#8 then pure 1 else pure 0
      else pure 0) = Res.ok (r : Nat) := by
    intro re rp h
    rw [isStr_first h]
    simp only [Res.ok_bind]
    by_cases h0 : re.headD 0#8 = 0#8
    · rw [if_pos h0]; exact ⟨_, rfl⟩
    · rw [if_neg h0]
      by_cases h1 : re.headD 0#8 = 42#8
      · rw [if_pos h1]
        cases re with
        | nil => simp at h1
        | cons c re =>
          rw [isStr_first (isStr_cons.1 h).2.2]
          simp only [Res.ok_bind]
          split
          · exact ⟨_, rfl⟩
          · exact ⟨_, rfl⟩
      · rw [if_neg h1]; exact ⟨_, rfl⟩
  unfold matchEnd
  rw [isStr_first h]
  simp only [Res.ok_bind]
  by_cases hg : re.headD 0#8 = 35#8 ∨ re.headD 0#8 = 36#8
  · rw [if_pos hg]
    cases re with
    | nil => simp at hg
    | cons c re => exact key (isStr_cons.1 h).2.2
  · rw [if_neg hg]; exact key h

section
variable {m : Mem} {n : Nat}

theorem starLoop_safe {re : List Byte} {rp : Nat} (hr : m.IsStr rp re)
    (ih : ∀ {s : List Byte} {text : Nat} {st : Option TextMatch}, m.IsStr text s → ∃ x, matchLoop m text rp st = .ok x) (neg : Bool) (mp : Option Nat) :
    ∀ {s : List Byte} {text : Nat} {b : Byte} {st : Option TextMatch}, m.IsStr text (b :: s) → ∃ x, starLoop m text rp st neg mp = .ok x := by
  intro s
  induction s with
  | nil =>
    intro text b st ht
    rw [starLoop, match_]
    obtain ⟨x, hx⟩ := ih (st := st.map fun q => { q with len := 0 }) ht
    rw [hx]
    simp only [Res.ok_bind]
    split
    · exact ⟨_, rfl⟩
    · rw [isStr_first (isStr_cons.1 ht).2.2]
      simp only [Res.ok_bind, List.headD_nil, if_true]
      rw [isStr_first hr]
      simp only [Res.ok_bind]
      by_cases hg : re.headD 0#8 = 35#8 ∨ re.headD 0#8 = 36#8
      · rw [if_pos hg]
        cases re with
        | nil => simp at hg
        | cons c re =>
          rw [isStr_first (isStr_cons.1 hr).2.2]
          simp only [Res.ok_bind]
          split
          · exact ⟨_, rfl⟩
          · exact ⟨_, rfl⟩
      · rw [if_neg hg]; exact ⟨_, rfl⟩
  | cons c s ihs =>
    intro text b st ht
    rw [starLoop, match_]
    obtain ⟨x, hx⟩ := ih (st := st.map fun q => { q with len := 0 }) ht
    rw [hx]
    simp only [Res.ok_bind]
    split
    · exact ⟨_, rfl⟩
    · have ht2 := (isStr_cons.1 ht).2.2
      rw [isStr_first ht2]
      simp only [Res.ok_bind, List.headD_cons]
      rw [if_neg (isStr_cons.1 ht2).2.1]
      exact ihs ht2

theorem matchStar_safe {re : List Byte} {rp : Nat} (hr : m.IsStr rp re)
    (ih : ∀ {s : List Byte} {text : Nat} {st : Option TextMatch}, m.IsStr text s → ∃ x, matchLoop m text rp st = .ok x) (neg : Bool) (mp : Option Nat)
    {s : List Byte} {text : Nat} {b : Byte} {st : Option TextMatch} (ht : m.IsStr text (b :: s)) : ∃ x, matchStar m text rp st neg mp = .ok x := by
  rw [matchStar, isStr_first hr]
  simp only [Res.ok_bind]
  split
  · split
    · rw [textEnd_eq ht]
      exact ⟨_, rfl⟩
    · exact ⟨_, rfl⟩
  · exact starLoop_safe hr ih neg mp ht

theorem matchStep_safe (ih : ∀ {re : List Byte}, re.length < n → ∀ {s : List Byte} {text rp : Nat} {st : Option TextMatch}, m.IsStr text s → m.IsStr rp re →
      ∃ x, matchLoop m text rp st = .ok x) {re s : List Byte} {text rp : Nat} {b : Byte} {st : Option TextMatch} (neg : Bool) (hn : re.length ≤ n)
    (ht : m.IsStr text (b :: s)) (hr : m.IsStr rp re) : ∃ x, matchStep m text rp st b (re.headD 0#8) neg = .ok x := by
  cases re with
  | nil =>
    rw [matchStep]
    simp only [List.headD_nil]
    repeat rw [if_neg (by decide)]
    rw [if_true]
    exact ⟨_, rfl⟩
  | cons c re =>
    simp only [List.headD_cons, List.length_cons] at hn ⊢
    have ht2 := (isStr_cons.1 ht).2.2
    have hr2 := (isStr_cons.1 hr).2.2
    have go : ∃ x, matchLoop m (text + 1) (rp + 1) st = .ok x := ih (by omega) ht2 hr2
    have starGo : ∀ mp, ∃ x, matchStar m text (rp + 1) st neg mp = .ok x := fun mp => matchStar_safe hr2 (ih (by omega) · hr2) neg mp ht
    have plusGo : ∀ mp, ∃ x, (do
        let t ← m.load (text + 1)
        if t = 0#8 then pure (xorNeg neg 0, st) else matchStar m (text + 1) (rp + 1) st neg mp) = Res.ok x := by
      intro mp
      rw [isStr_first ht2]
      simp only [Res.ok_bind]
      cases s with
      | nil => exact ⟨_, rfl⟩
      | cons d s =>
        rw [List.headD_cons, if_neg (isStr_cons.1 ht2).2.1]
        exact matchStar_safe hr2 (ih (by omega) · hr2) neg mp ht2
    rw [matchStep]
    refine if h63 : c = 63#8 then ?_ else ?_
    · rw [if_pos h63]; split; exact ⟨_, rfl⟩; exact go
    rw [if_neg h63]
    refine if h91 : c = 91#8 then ?_ else ?_
    · rw [if_pos h91]
      rcases classFind_safe (t := b) hr2 with h | ⟨k, hk, h⟩
      · rw [h]; exact ⟨_, rfl⟩
      · rw [h]
        simp only [Res.ok_bind]
        obtain ⟨j, hj, h'⟩ := classEnd_safe (isStr_dropN hr2 hk)
        rw [h']
        simp only [Res.ok_bind]
        have hr3 := isStr_dropN (isStr_dropN hr2 hk) hj
        rw [isStr_first hr3]
        simp only [Res.ok_bind]
        cases hd : (re.drop k).drop j with
        | nil => exact ⟨_, rfl⟩
        | cons d l =>
          rw [hd] at hr3
          rw [List.headD_cons, if_neg (isStr_cons.1 hr3).2.1]
          split
          · exact ⟨_, rfl⟩
          · refine ih ?_ ht2 (isStr_cons.1 hr3).2.2
            have := congrArg List.length hd
            simp only [List.length_drop, List.length_cons] at this
            omega
    rw [if_neg h91]
    refine if h35 : c = 35#8 then ?_ else ?_
    · rw [if_pos h35]; split; exact go; exact ⟨_, rfl⟩
    rw [if_neg h35]
    refine if h64 : c = 64#8 then ?_ else ?_
    · rw [if_pos h64]; split; exact go; exact ⟨_, rfl⟩
    rw [if_neg h64]
    refine if h37 : c = 37#8 then ?_ else ?_
    · rw [if_pos h37]; exact plusGo _
    rw [if_neg h37]
    refine if h43 : c = 43#8 then ?_ else ?_
    · rw [if_pos h43]; exact plusGo _
    rw [if_neg h43]
    refine if h42 : c = 42#8 then ?_ else ?_
    · rw [if_pos h42]; exact starGo _
    rw [if_neg h42]
    refine if h92 : c = 92#8 then ?_ else ?_
    · rw [if_pos h92, isStr_first hr2]
      simp only [Res.ok_bind]
      cases re with
      | nil =>
        simp only [List.headD_nil]
        have : escapeClass neg 0#8 b = none := by simp [escapeClass]
        rw [this]
        exact ⟨_, rfl⟩
      | cons d re =>
        simp only [List.headD_cons]
        have go2 : ∃ x, matchLoop m (text + 1) (rp + 2) st = .ok x := ih (by simp only [List.length_cons] at hn; omega) ht2 (isStr_cons.1 hr2).2.2
        cases escapeClass neg d b with
        | some v => cases v; exact ⟨_, rfl⟩; exact go2
        | none =>
          show ∃ x, (if d = 0#8 then pure (0, st) else if (neg ^^ decide (d ≠ b)) then pure (0, st) else matchLoop m (text + 1) (rp + 2) st) = Res.ok x
          split
          · exact ⟨_, rfl⟩
          · split
            · exact ⟨_, rfl⟩
            · exact go2
    rw [if_neg h92]
    split
    · exact ⟨_, rfl⟩
    · split; exact ⟨_, rfl⟩; exact go

theorem matchLoop_safe : ∀ (n : Nat) {re : List Byte}, re.length < n → ∀ {s : List Byte} {text rp : Nat} {st : Option TextMatch}, m.IsStr text s → m.IsStr rp re →
    ∃ x, matchLoop m text rp st = .ok x
  | n + 1, re, hn, s, text, rp, st, ht, hr => by
    cases s with
    | nil =>
      rw [matchLoop, isStr_first ht]
      simp only [Res.ok_bind, List.headD_nil, if_true]
      obtain ⟨r, h⟩ := matchEnd_safe hr
      rw [h]
      exact ⟨_, rfl⟩
    | cons b s =>
      by_cases h33 : re.headD 0#8 = 33#8
      · cases re with
        | nil => simp at h33
        | cons c re =>
          simp only [List.headD_cons] at h33
          subst h33
          rw [matchLoop_neg ht hr]
          exact matchStep_safe (matchLoop_safe n) true (by simp only [List.length_cons] at hn; omega) ht (isStr_cons.1 hr).2.2
      · rw [matchLoop_cons ht hr h33]
        exact matchStep_safe (matchLoop_safe n) false (by omega) ht hr
end

/-- C52, first half: whatever the text and the pattern are, `match` returns and reads nothing behind their ends. -/
theorem C52_safe {m : Mem} {text rp : Nat} {s re : List Byte} (ht : m.IsStr text s) (hr : m.IsStr rp re) (st : Option TextMatch) :
    ∃ x, «match» m text rp st = .ok x := by
  have go : ∀ {re : List Byte} {rp : Nat} (st : Option TextMatch), m.IsStr rp re → ∃ x, match_ m text rp st = .ok x := by
    intro re rp st h
    rw [match_]
    exact matchLoop_safe (re.length + 1) (Nat.lt_succ_self _) ht h
  have go2 : ∀ {re re' : List Byte} {rp rp' : Nat} (st : Option TextMatch), m.IsStr rp re → m.IsStr rp' re' → ∃ x, (do
      let r ← match_ m text rp st
      if r.1 = 1 then pure r else match_ m text rp' r.2) = Res.ok x := by
    intro re re' rp rp' st h h'
    obtain ⟨x, hx⟩ := go st h
    rw [hx]
    simp only [Res.ok_bind]
    split
    · exact ⟨_, rfl⟩
    · exact go _ h'
  unfold «match»
  rw [isStr_first hr]
  simp only [Res.ok_bind]
  by_cases h42 : re.headD 0#8 = 42#8
  · rw [if_pos h42]
    cases hre : re with
    | nil => rw [hre] at h42; simp at h42
    | cons c l =>
      rw [hre] at hr
      have hr2 := (isStr_cons.1 hr).2.2
      rw [isStr_first hr2]
      simp only [Res.ok_bind]
      by_cases h64 : l.headD 0#8 = 64#8
      · rw [if_pos h64]
        cases l with
        | nil => simp at h64
        | cons d l => exact go2 st (isStr_cons.1 hr2).2.2 hr
      · rw [if_neg h64]; exact go st hr
  · rw [if_neg h42]
    by_cases h64 : re.headD 0#8 = 64#8
    · rw [if_pos h64]
      cases re with
      | nil => simp at h64
      | cons d l => exact go2 st (isStr_cons.1 hr).2.2 hr
    · rw [if_neg h64]; exact go st hr

/-! ### The language -/

def wider : Tok → Tok
  | .rep n c => .rep (if n = 1 then 2 else n) c
  | t => t

/-- A '+' or '%' at the end of the pattern: the code wants two characters. -/
def strict : List Tok → List Tok
  | [] => []
  | t :: r => if r = [] then [wider t] else t :: strict r

/-- Something in the pattern takes at least one character, when this is not the beginning of the text. -/
def _root_.Spec.Tok.takes : Tok → Bool
  | .one _ _ => true
  | .rep n _ => n != 0
  | .bol => true
  | _ => false

/-- The patterns for which the code finds every match: behind a '*', '+' or '%' which is not the end of the pattern, and behind a '#' or '$'
that is not at the end, something takes a character ("#*" and "$*" at the end are fine, too). -/
def WF : List Tok → Prop
  | [] => True
  | .rep _ _ :: r => (r = [] ∨ r.any Tok.takes = true) ∧ WF r
  | .gap :: r => (r = [] ∨ r = [.rep 0 false] ∨ r.any Tok.takes = true) ∧ WF r
  | .eot :: r => (r = [] ∨ r = [.rep 0 false] ∨ r.any Tok.takes = true) ∧ WF r
  | _ :: r => WF r

theorem strict_cons {t : Tok} {r : List Tok} (h : r ≠ []) : strict (t :: r) = t :: strict r := by rw [strict, if_neg h]
theorem strict_one {n : Bool} {c : CClass} {r : List Tok} : strict (.one n c :: r) = .one n c :: strict r := by
  rw [strict]; split <;> simp_all [strict, wider]
theorem strict_gap {r : List Tok} : strict (.gap :: r) = .gap :: strict r := by rw [strict]; split <;> simp_all [strict, wider]
theorem strict_eot {r : List Tok} : strict (.eot :: r) = .eot :: strict r := by rw [strict]; split <;> simp_all [strict, wider]
theorem strict_bol {r : List Tok} : strict (.bol :: r) = .bol :: strict r := by rw [strict]; split <;> simp_all [strict, wider]
theorem strict_star {c : Bool} {r : List Tok} : strict (.rep 0 c :: r) = .rep 0 c :: strict r := by rw [strict]; split <;> simp_all [strict, wider]

theorem strict_takes : ∀ {r : List Tok}, r.any Tok.takes = true → (strict r).any Tok.takes = true
  | [], h => by simp at h
  | t :: r, h => by
    rw [strict]
    split
    · rename_i e
      subst e
      cases t with
      | rep n c =>
        simp only [List.any_cons, Spec.Tok.takes, List.any_nil, Bool.or_false, wider] at h ⊢
        split
        · rfl
        · exact h
      | _ => exact h
    · simp only [List.any_cons, Bool.or_eq_true] at h ⊢
      exact h.imp id strict_takes

theorem takes_empty : ∀ {r : List Tok}, r.any Tok.takes = true → ¬ Matches false r []
  | [], h => by simp at h
  | t :: r, h => by
    simp only [List.any_cons, Bool.or_eq_true] at h
    intro hm
    cases t with
    | one n c => obtain ⟨b, t, e, _⟩ := hm; cases e
    | rep n c =>
      obtain ⟨u, v, e, hn, hr⟩ := hm
      rw [List.nil_eq_append_iff] at e
      obtain ⟨rfl, rfl⟩ := e
      simp only [List.length_nil, Nat.le_zero_eq] at hn
      subst hn
      exact takes_empty (h.resolve_left (by simp [Tok.takes])) hr
    | gap =>
      rcases hm with ⟨b, t, e, _⟩ | ⟨_, hr⟩
      · cases e
      · exact takes_empty (h.resolve_left (by simp [Tok.takes])) hr
    | eot => exact takes_empty (h.resolve_left (by simp [Tok.takes])) hm.2
    | bol =>
      rcases hm with ⟨t, e, _⟩ | ⟨e, _⟩
      · cases e
      · cases e

theorem strict_matches : ∀ {st : Bool} {r : List Tok} {s : List Byte}, Matches st (strict r) s → Matches st r s
  | st, [], s, h => h
  | st, t :: r, s, h => by
    cases t with
    | one n c =>
      rw [strict_one] at h
      obtain ⟨b, t, e, h1, h2⟩ := h
      exact ⟨b, t, e, h1, strict_matches h2⟩
    | gap =>
      rw [strict_gap] at h
      rcases h with ⟨b, t, e, h1, h2⟩ | ⟨h1, h2⟩
      · exact Or.inl ⟨b, t, e, h1, strict_matches h2⟩
      · exact Or.inr ⟨h1, strict_matches h2⟩
    | eot =>
      rw [strict_eot] at h
      exact ⟨h.1, strict_matches h.2⟩
    | bol =>
      rw [strict_bol] at h
      rcases h with ⟨t, e, h1⟩ | ⟨h1, h2⟩
      · exact Or.inl ⟨t, e, strict_matches h1⟩
      · exact Or.inr ⟨h1, strict_matches h2⟩
    | rep n c =>
      by_cases hr : r = []
      · subst hr
        rw [strict, if_pos rfl] at h
        obtain ⟨u, v, e, h1, h2⟩ := h
        refine ⟨u, v, e, ?_, h2⟩
        split at h1 <;> omega
      · rw [strict_cons hr] at h
        obtain ⟨u, v, e, h1, h2⟩ := h
        exact ⟨u, v, e, h1, strict_matches h2⟩

/-- What is found for the first '%'. -/
def CapInfo (toks : List Tok) (text : Nat) (s : List Byte) (q : TextMatch) : Prop :=
  (.rep 1 true ∉ toks → q.len = 0) ∧
  ∀ pre post, toks = pre ++ .rep 1 true :: post → .rep 1 true ∉ pre → s.length < 2147483648 →
    ∃ u v w, s = u ++ v ++ w ∧ Matches false pre u ∧ v ≠ [] ∧ Matches false (strict post) w ∧ q.pos = text + u.length ∧ q.len = v.length ∧
      (WF toks → ∀ v1 v2, v = v1 ++ v2 → v1 ≠ [] → v2 ≠ [] → ¬ Matches false (strict post) (v2 ++ w))

structure Outcome (toks : List Tok) (text : Nat) (s : List Byte) (st : Option TextMatch) (r : Nat) (st' : Option TextMatch) : Prop where
  bool : r = 0 ∨ r = 1
  sound : r = 1 → Matches false (strict toks) s
  complete : WF toks → Matches false (strict toks) s → r = 1
  kept : st' = none ↔ st = none
  zero : r = 0 → ∀ q, st' = some q → q.len = 0
  cap : r = 1 → ∀ q, st' = some q → CapInfo toks text s q

/-- The state of the struct when the loop begins. -/
def Zero (st : Option TextMatch) : Prop := ∀ q, st = some q → q.len = 0

theorem outcome_fail {toks : List Tok} {text : Nat} {s : List Byte} {st : Option TextMatch} (hz : Zero st) (h : ¬ Matches false (strict toks) s) :
    Outcome toks text s st 0 st :=
  ⟨Or.inl rfl, by omega, fun _ hm => absurd hm h, Iff.rfl, fun _ => hz, by omega⟩

/-- A part which takes one character and is not a '%'. -/
theorem outcome_cons {t : Tok} {toks : List Tok} {text : Nat} {b : Byte} {s : List Byte} {st st' : Option TextMatch} {r : Nat}
    (ho : Outcome toks (text + 1) s st r st') (ht : t ≠ .rep 1 true) (h1 : ∀ rest, Matches false (t :: rest) (b :: s) ↔ Matches false rest s)
    (h1' : ∀ u rest, Matches false rest u → Matches false (t :: rest) (b :: u))
    (h2 : strict (t :: toks) = t :: strict toks) (h3 : WF (t :: toks) → WF toks) : Outcome (t :: toks) text (b :: s) st r st' := by
  refine ⟨ho.bool, fun h => ?_, fun hw hm => ?_, ho.kept, ho.zero, fun h q hq => ?_⟩
  · rw [h2]; exact (h1 _).2 (ho.sound h)
  · rw [h2] at hm; exact ho.complete (h3 hw) ((h1 _).1 hm)
  · obtain ⟨c1, c2⟩ := ho.cap h q hq
    refine ⟨fun hn => c1 (fun hm => hn (by simp [hm])), ?_⟩
    intro pre post hpre hcap hlen
    cases pre with
    | nil => simp only [List.nil_append, List.cons.injEq] at hpre; exact absurd hpre.1 ht
    | cons t' pre =>
      simp only [List.cons_append, List.cons.injEq] at hpre
      obtain ⟨rfl, hpre⟩ := hpre
      simp only [List.length_cons] at hlen
      obtain ⟨u, v, w, e1, e2, e3, e4, e5, e6, e7⟩ := c2 pre post hpre (fun hm => hcap (by simp [hm])) (by omega)
      refine ⟨b :: u, v, w, by rw [e1]; rfl, h1' _ _ e2, e3, e4, by rw [e5, List.length_cons]; omega, e6, fun hw => e7 (h3 hw)⟩

/-- The result of looking for the rest of the pattern. -/
structure StarOut (rest : List Tok) (text : Nat) (s : List Byte) (st : Option TextMatch) (mp : Option Nat) (r : Nat) (st' : Option TextMatch) : Prop where
  bool : r = 0 ∨ r = 1
  found : r = 1 → ∃ u v, s = u ++ v ∧ Matches false (strict rest) v ∧
    (WF rest → (rest = [] ∨ rest.any Tok.takes = true) → ∀ u1 u2, u = u1 ++ u2 → u2 ≠ [] → ¬ Matches false (strict rest) (u2 ++ v)) ∧
    (∀ p, mp = some p → ∀ q, st' = some q → q = ⟨p, (BitVec.ofNat 32 (text + u.length - p)).toInt⟩) ∧
    (mp = none → ∀ q, st' = some q → CapInfo rest (text + u.length) v q)
  notFound : r = 0 → WF rest → (rest = [] ∨ rest.any Tok.takes = true) → ∀ u v, s = u ++ v → ¬ Matches false (strict rest) v
  kept : st' = none ↔ st = none
  zero : r = 0 → ∀ q, st' = some q → q.len = 0

theorem setMatch_none {st : Option TextMatch} {mp : Option Nat} {e : Nat} : setMatch st mp e = none ↔ st = none := by
  cases mp <;> simp [setMatch]

theorem starLoop_out {m : Mem} {rest : List Tok} {re : List Byte} {rp : Nat} (hp : Pattern rest re) (hne : rest ≠ []) (hr : m.IsStr rp re) {full : List Byte}
    (ih : ∀ {s : List Byte} {text : Nat} {st : Option TextMatch}, m.IsStr text s → s <:+ full → Zero st → ∃ r st', matchLoop m text rp st = .ok (r, st') ∧ Outcome rest text s st r st')
    (mp : Option Nat) : ∀ {s : List Byte} {text : Nat} {b : Byte} {st : Option TextMatch}, m.IsStr text (b :: s) → b :: s <:+ full →
      ∃ r st', starLoop m text rp st false mp = .ok (r, st') ∧ StarOut rest text (b :: s) st mp r st' := by
  intro s
  induction s with
  | nil =>
    intro text b st ht hsf
    have hz : Zero (st.map fun q => { q with len := 0 }) := by
      intro q hq
      cases st with
      | none => cases hq
      | some a => cases hq; rfl
    obtain ⟨r, st', hx, ho⟩ := ih ht hsf hz
    have hkept : st' = none ↔ st = none := by rw [ho.kept]; simp
    rw [starLoop, match_, hx]
    simp only [Res.ok_bind]
    rcases ho.bool with h0 | h1
    · subst h0
      rw [if_neg (by simp), isStr_first (isStr_cons.1 ht).2.2]
      simp only [Res.ok_bind, List.headD_nil, if_true]
      rw [isStr_first hr]
      simp only [Res.ok_bind]
      have hnf : ∀ (_ : WF rest) (_ : rest = [] ∨ rest.any Tok.takes = true) (u v : List Byte), [b] = u ++ v → ¬ Matches false (strict rest) v := by
        intro hwf hc u v huv hm
        cases u with
        | nil =>
          simp only [List.nil_append] at huv
          subst huv
          have := ho.complete hwf hm
          omega
        | cons x u =>
          simp only [List.cons_append, List.cons.injEq, List.nil_eq_append_iff] at huv
          obtain ⟨_, _, rfl⟩ := huv
          exact takes_empty (strict_takes (hc.resolve_left hne)) hm
      have hfail : StarOut rest text [b] st mp 0 st' := ⟨Or.inl rfl, by omega, fun _ => hnf, hkept, fun _ => ho.zero rfl⟩
      by_cases hg : re.headD 0#8 = 35#8 ∨ re.headD 0#8 = 36#8
      · rw [if_pos hg]
        cases hp with
        | nil => exact absurd rfl hne
        | @cons t w ts re' g1 g2 =>
          have hw : w.length = 1 ∧ (t = .gap ∨ t = .eot) := by
            rcases hg with hg | hg
            · obtain ⟨e1, e2⟩ := spells_head g1 hg (by decide)
              refine ⟨by rw [e1]; rfl, ?_⟩
              rcases e2 with ⟨h, _⟩ | ⟨h, _⟩ | ⟨_, h⟩
              · exact Or.inl h
              · exact Or.inr h
              · cases h
            · obtain ⟨e1, e2⟩ := spells_head g1 hg (by decide)
              refine ⟨by rw [e1]; rfl, ?_⟩
              rcases e2 with ⟨h, _⟩ | ⟨h, _⟩ | ⟨_, h⟩
              · exact Or.inl h
              · exact Or.inr h
              · cases h
          have hr2 := isStr_tail hr
          rw [hw.1] at hr2
          rw [isStr_first hr2]
          simp only [Res.ok_bind]
          by_cases hd : re'.headD 0#8 = 0#8
          · rw [if_pos hd]
            have hre : re' = [] := by
              cases re' with
              | nil => rfl
              | cons x l => exact absurd hd (isStr_cons.1 hr2).2.1
            have hts : ts = [] := (pattern_nil g2).2 hre
            subst hts
            have hmm : Matches false (strict [t]) [] := by
              rcases hw.2 with rfl | rfl
              · exact Or.inr ⟨rfl, rfl⟩
              · exact ⟨rfl, rfl⟩
            have htk : t.takes = false := by
              rcases hw.2 with rfl | rfl <;> rfl
            refine ⟨_, _, rfl, Or.inr rfl, fun _ => ⟨[b], [], rfl, hmm, ?_, ?_, ?_⟩, by simp [xorNeg], by rw [setMatch_none]; exact hkept, by simp [xorNeg]⟩
            · intro _ hc
              rcases hc with hc | hc
              · cases hc
              · simp [htk] at hc
            · intro p hmp q hq
              subst hmp
              cases st' with
              | none => cases hq
              | some a => cases hq; rfl
            · intro hmp q hq
              subst hmp
              refine ⟨fun _ => ho.zero rfl q hq, ?_⟩
              intro pre post hpre _ _
              exfalso
              cases pre with
              | nil => simp only [List.nil_append, List.cons.injEq] at hpre; rw [hpre.1] at htk; cases htk
              | cons x pre => simp at hpre
          · rw [if_neg hd]
            exact ⟨_, _, rfl, hfail⟩
      · rw [if_neg hg]
        exact ⟨_, _, rfl, hfail⟩
    · subst h1
      rw [if_pos (by simp)]
      refine ⟨_, _, rfl, Or.inr rfl, fun _ => ⟨[], [b], rfl, ho.sound rfl, ?_, ?_, ?_⟩, by simp [xorNeg], by rw [setMatch_none]; exact hkept, by simp [xorNeg]⟩
      · intro _ _ u1 u2 hu hu2
        rw [List.nil_eq_append_iff] at hu
        exact absurd hu.2 hu2
      · intro p hmp q hq
        subst hmp
        cases st' with
        | none => cases hq
        | some a => cases hq; rfl
      · intro hmp q hq
        subst hmp
        exact ho.cap rfl q hq
  | cons c s ihs =>
    intro text b st ht hsf
    have hz : Zero (st.map fun q => { q with len := 0 }) := by
      intro q hq
      cases st with
      | none => cases hq
      | some a => cases hq; rfl
    obtain ⟨r, st', hx, ho⟩ := ih ht hsf hz
    have hkept : st' = none ↔ st = none := by rw [ho.kept]; simp
    rw [starLoop, match_, hx]
    simp only [Res.ok_bind]
    rcases ho.bool with h0 | h1
    · subst h0
      have ht2 := (isStr_cons.1 ht).2.2
      rw [if_neg (by simp), isStr_first ht2]
      simp only [Res.ok_bind, List.headD_cons]
      rw [if_neg (isStr_cons.1 ht2).2.1]
      obtain ⟨r2, st2, hx2, so⟩ := ihs (st := st') ht2 ((List.suffix_cons b (c :: s)).trans hsf)
      refine ⟨r2, st2, hx2, so.bool, ?_, ?_, by rw [so.kept]; exact hkept, so.zero⟩
      · intro h1
        obtain ⟨u, v, e1, e2, e3, e4, e5⟩ := so.found h1
        have e : text + (b :: u).length = text + 1 + u.length := by rw [List.length_cons]; omega
        refine ⟨b :: u, v, by rw [e1]; rfl, e2, ?_, by rw [e]; exact e4, by rw [e]; exact e5⟩
        intro hwf hc u1 u2 hu hu2 hm
        cases u1 with
        | nil =>
          simp only [List.nil_append] at hu
          subst hu
          have : r2 ≠ 1 ∨ True := Or.inr trivial
          have h01 := ho.complete hwf (by rw [e1]; exact hm)
          omega
        | cons x u1 =>
          simp only [List.cons_append, List.cons.injEq] at hu
          exact e3 hwf hc u1 u2 hu.2 hu2 hm
      · intro h0 hwf hc u v huv hm
        cases u with
        | nil =>
          simp only [List.nil_append] at huv
          subst huv
          have := ho.complete hwf hm
          omega
        | cons x u =>
          simp only [List.cons_append, List.cons.injEq] at huv
          exact so.notFound h0 hwf hc u v huv.2 hm
    · subst h1
      rw [if_pos (by simp)]
      refine ⟨_, _, rfl, Or.inr rfl, fun _ => ⟨[], b :: c :: s, rfl, ho.sound rfl, ?_, ?_, ?_⟩, by simp [xorNeg], by rw [setMatch_none]; exact hkept, by simp [xorNeg]⟩
      · intro _ _ u1 u2 hu hu2
        rw [List.nil_eq_append_iff] at hu
        exact absurd hu.2 hu2
      · intro p hmp q hq
        subst hmp
        cases st' with
        | none => cases hq
        | some a => cases hq; rfl
      · intro hmp q hq
        subst hmp
        exact ho.cap rfl q hq

theorem matchStar_out {m : Mem} {rest : List Tok} {re : List Byte} {rp : Nat} (hp : Pattern rest re) (hr : m.IsStr rp re) {full : List Byte}
    (ih : ∀ {s : List Byte} {text : Nat} {st : Option TextMatch}, m.IsStr text s → s <:+ full → Zero st → ∃ r st', matchLoop m text rp st = .ok (r, st') ∧ Outcome rest text s st r st')
    (mp : Option Nat) {s : List Byte} {text : Nat} {b : Byte} {st : Option TextMatch} (hz : Zero st) (ht : m.IsStr text (b :: s)) (hsf : b :: s <:+ full) :
      ∃ r st', matchStar m text rp st false mp = .ok (r, st') ∧ StarOut rest text (b :: s) st mp r st' := by
  rw [matchStar, isStr_first hr]
  simp only [Res.ok_bind]
  by_cases hrest : rest = []
  · have hre := (pattern_nil hp).1 hrest
    subst hrest hre
    simp only [List.headD_nil, if_true]
    rw [textEnd_eq ht]
    simp only [Res.ok_bind]
    have hmin : ∀ u1 u2 : List Byte, b :: s = u1 ++ u2 → u2 ≠ [] → ¬ Matches false (strict []) (u2 ++ []) := by
      intro u1 u2 _ hu2 hm
      rw [List.append_nil] at hm
      exact hu2 hm
    split
    · refine ⟨_, _, rfl, Or.inr rfl, fun _ => ⟨b :: s, [], by simp, rfl, fun _ _ => hmin, ?_, ?_⟩, by simp [xorNeg], setMatch_none, by simp [xorNeg]⟩
      · intro p hmp q hq
        subst hmp
        cases st with
        | none => cases hq
        | some a => cases hq; rfl
      · intro hmp
        subst hmp
        rename_i h
        simp at h
    · rename_i hmps
      refine ⟨_, _, rfl, Or.inr rfl, fun _ => ⟨b :: s, [], by simp, rfl, fun _ _ => hmin, ?_, ?_⟩, by simp [xorNeg], Iff.rfl, by simp [xorNeg]⟩
      · intro p hmp q hq
        subst hmp hq
        simp at hmps
      · intro hmp q hq
        refine ⟨fun _ => hz q hq, ?_⟩
        intro pre post hpre
        simp at hpre
  · have hne : re.headD 0#8 ≠ 0#8 := by
      cases re with
      | nil => exact absurd ((pattern_nil hp).2 rfl) hrest
      | cons x l => exact (isStr_cons.1 hr).2.1
    rw [if_neg hne]
    exact starLoop_out hp hrest hr ih mp ht hsf

theorem okFor_suffix {s s' : List Byte} {t : Tok} (h : okFor s t) (hs : s' <:+ s) : okFor s' t := by
  have hm : ∀ b, b ∈ s' → b ∈ s := fun b hb => hs.mem hb
  unfold okFor at h ⊢
  split
  · exact ⟨h.1, fun hb => h.2 (hm _ hb)⟩
  · exact fun b hb => h b (hm _ hb)
  · exact fun b hb => h b (hm _ hb)
  · exact fun hb => h (hm _ hb)
  · trivial

/-- The engine without the treatment of '@' at the beginning. -/
theorem matchLoop_out {m : Mem} {toks : List Tok} {re : List Byte} (hp : Pattern toks re) : ∀ {s : List Byte} {text rp : Nat} {st : Option TextMatch},
    m.IsStr text s → m.IsStr rp re → (∀ t ∈ toks, okFor s t) → Zero st →
    ∃ r st', matchLoop m text rp st = .ok (r, st') ∧ Outcome toks text s st r st' := by
  induction hp with
  | nil =>
    intro s text rp st ht hr _ hz
    cases s with
    | nil =>
      rw [matchLoop, isStr_first ht]
      simp only [Res.ok_bind, List.headD_nil, if_true]
      rw [matchEnd_eq .nil hr]
      refine ⟨1, st, rfl, Or.inr rfl, fun _ => rfl, fun _ _ => rfl, Iff.rfl, by omega, fun _ q hq => ⟨fun _ => hz q hq, ?_⟩⟩
      intro pre post hpre
      simp at hpre
    | cons b s =>
      rw [step_nil ht hr]
      exact ⟨0, st, rfl, outcome_fail hz (by intro h; cases h)⟩
  | @cons t w toks re hw hpat ih =>
    intro s text rp st ht hr hok hz
    have hr2 := isStr_tail hr
    have hokr : ∀ t ∈ toks, okFor s t := fun x hx => hok x (by simp [hx])
    cases s with
    | nil =>
      rw [matchLoop, isStr_first ht]
      simp only [Res.ok_bind, List.headD_nil, if_true]
      rw [matchEnd_eq (.cons hw hpat) hr]
      simp only [Res.ok_bind]
      by_cases hin : t :: toks ∈ [[], [.rep 0 false], [.gap], [.eot], [.gap, .rep 0 false], [.eot, .rep 0 false]]
      · rw [if_pos hin]
        refine ⟨1, st, rfl, Or.inr rfl, fun _ => ?_, fun _ _ => rfl, Iff.rfl, by omega, fun _ q hq => ⟨fun _ => hz q hq, ?_⟩⟩
        · simp only [List.mem_cons, List.not_mem_nil, or_false] at hin
          rcases hin with h | h | h | h | h | h <;> rw [h]
          · rfl
          · exact ⟨[], [], rfl, by simp, rfl⟩
          · exact Or.inr ⟨rfl, rfl⟩
          · exact ⟨rfl, rfl⟩
          · exact Or.inr ⟨rfl, [], [], rfl, by simp, rfl⟩
          · exact ⟨rfl, [], [], rfl, by simp, rfl⟩
        · intro pre post hpre
          exfalso
          have hmem : Tok.rep 1 true ∈ t :: toks := by rw [hpre]; simp
          simp only [List.mem_cons, List.not_mem_nil, or_false] at hin
          rcases hin with h | h | h | h | h | h <;> rw [h] at hmem <;> simp at hmem
      · rw [if_neg hin]
        refine ⟨0, st, rfl, Or.inl rfl, by omega, fun hwf hm => ?_, Iff.rfl, fun _ => hz, by omega⟩
        exfalso
        by_cases htk : (t :: toks).any Tok.takes = true
        · exact takes_empty (strict_takes htk) hm
        · simp only [List.any_cons, Bool.or_eq_true, not_or] at htk
          have htail : ∀ l : List Tok, l.any Tok.takes = true → ¬ l.any Tok.takes = true → False := fun _ a b => b a
          cases hw with
          | one h => exact htk.1 rfl
          | neg h => exact htk.1 rfl
          | negGap => exact htk.1 rfl
          | negBol => exact htk.1 rfl
          | star =>
            rcases hwf.1 with h | h
            · subst h; exact hin (by simp)
            · exact htk.2 h
          | plus => exact htk.1 rfl
          | percent => exact htk.1 rfl
          | gap =>
            rcases hwf.1 with h | h | h
            · subst h; exact hin (by simp)
            · subst h; exact hin (by simp)
            · exact htk.2 h
          | eot =>
            rcases hwf.1 with h | h | h
            · subst h; exact hin (by simp)
            · subst h; exact hin (by simp)
            · exact htk.2 h
          | bol => exact htk.1 rfl
    | cons b s =>
      have ht2 := (isStr_cons.1 ht).2.2
      have hsuf : s <:+ b :: s := List.suffix_cons b s
      have hokt : ∀ t ∈ toks, okFor s t := fun x hx => okFor_suffix (hokr x hx) hsuf
      have ihS : ∀ {s' : List Byte} {text' : Nat} {st' : Option TextMatch}, m.IsStr text' s' → s' <:+ b :: s → Zero st' →
          ∃ r st'', matchLoop m text' (rp + w.length) st' = .ok (r, st'') ∧ Outcome toks text' s' st' r st'' := by
        intro s' text' st' h1 h2 h3
        exact ih h1 hr2 (fun x hx => okFor_suffix (hokr x hx) h2) h3
      -- parts which take one character
      have oneCase : ∀ (cond : Prop) [Decidable cond], t ≠ .rep 1 true → strict (t :: toks) = t :: strict toks → (WF (t :: toks) → WF toks) →
          (∀ u rest, Matches false (t :: rest) (b :: u) ↔ cond ∧ Matches false rest u) →
          matchLoop m text rp st = (if cond then matchLoop m (text + 1) (rp + w.length) st else .ok (0, st)) →
          ∃ r st', matchLoop m text rp st = .ok (r, st') ∧ Outcome (t :: toks) text (b :: s) st r st' := by
        intro cond _ h1 h2 h3 h4 h5
        rw [h5]
        by_cases hc : cond
        · rw [if_pos hc]
          obtain ⟨r, st', hx, ho⟩ := ihS ht2 hsuf hz
          exact ⟨r, st', hx, outcome_cons ho h1 (fun rest => by rw [h4]; simp [hc]) (fun u rest hm => (h4 u rest).2 ⟨hc, hm⟩) h2 h3⟩
        · rw [if_neg hc]
          exact ⟨0, st, rfl, outcome_fail hz (by rw [h2, h4]; exact fun h => hc h.1)⟩
      have oneTok : ∀ (neg : Bool) (c : CClass), t = .one neg c → ∃ r st', matchLoop m text rp st = .ok (r, st') ∧ Outcome (t :: toks) text (b :: s) st r st' := by
        intro neg c e
        subst e
        refine oneCase ((neg ^^ c.has b) = true) (by simp) strict_one id ?_ (step_one hw ht hr (hok _ (by simp)))
        intro u rest
        constructor
        · rintro ⟨b', t', e, h1, h2⟩
          cases e
          refine ⟨?_, h2⟩
          cases neg <;> cases hh : c.has b <;> simp_all
        · rintro ⟨h1, h2⟩
          refine ⟨b, u, rfl, ?_, h2⟩
          cases neg <;> cases hh : c.has b <;> simp_all
      -- '+' and '%'
      have plusCase : ∀ (c : Bool), t = .rep 1 c → w.length = 1 →
          matchLoop m text rp st = (if s = [] then .ok (0, st) else matchStar m (text + 1) (rp + w.length) st false (if c then some text else none)) →
          ∃ r st', matchLoop m text rp st = .ok (r, st') ∧ Outcome (t :: toks) text (b :: s) st r st' := by
        intro c e hwl h5
        rw [h5]
        subst e
        have hstrict : ∀ s', Matches false (strict (.rep 1 c :: toks)) s' ↔
            ∃ u v, s' = u ++ v ∧ (if toks = [] then 2 else 1) ≤ u.length ∧ Matches false (strict toks) v := by
          intro s'
          by_cases h : toks = []
          · subst h
            simp only [strict, wider, if_true, Matches]
          · rw [strict_cons h, if_neg h]
            simp only [Matches, Bool.false_and]
        cases s with
        | nil =>
          rw [if_pos rfl]
          refine ⟨0, st, rfl, Or.inl rfl, by omega, fun hwf hm => ?_, Iff.rfl, fun _ => hz, by omega⟩
          exfalso
          obtain ⟨u, v, e1, e2, e3⟩ := (hstrict _).1 hm
          have hl := congrArg List.length e1
          simp only [List.length_cons, List.length_nil, List.length_append] at hl
          by_cases h : toks = []
          · rw [if_pos h] at e2; omega
          · rw [if_neg h] at e2
            have hv : v = [] := List.length_eq_zero_iff.1 (by omega)
            subst hv
            exact takes_empty (strict_takes (hwf.1.resolve_left h)) e3
        | cons d s =>
          rw [if_neg (by simp)]
          obtain ⟨r, st', hx, so⟩ := matchStar_out hpat hr2 ihS (if c then some text else none) hz ht2 hsuf
          refine ⟨r, st', hx, so.bool, ?_, ?_, so.kept, so.zero, ?_⟩
          · intro h1
            obtain ⟨u, v, e1, e2, _⟩ := so.found h1
            rw [hstrict]
            refine ⟨b :: u, v, by rw [e1]; rfl, ?_, e2⟩
            by_cases h : toks = []
            · rw [if_pos h]
              subst h
              have hv : v = [] := e2
              subst hv
              rw [List.append_nil] at e1
              rw [← e1]
              simp
            · rw [if_neg h]; simp
          · intro hwf hm
            rcases so.bool with h0 | h1
            · exfalso
              obtain ⟨u, v, e1, e2, e3⟩ := (hstrict _).1 hm
              cases u with
              | nil =>
                simp only [List.length_nil] at e2
                split at e2 <;> omega
              | cons x u =>
                simp only [List.cons_append, List.cons.injEq] at e1
                exact so.notFound h0 hwf.2 hwf.1 u v e1.2 e3
            · exact h1
          · intro h1 q hq
            obtain ⟨u, v, e1, e2, e3, e4, e5⟩ := so.found h1
            cases c with
            | true =>
              simp only [if_true] at e4
              have hqe := e4 text rfl q hq
              refine ⟨fun h => absurd (by simp) h, ?_⟩
              intro pre post hpre hcap hlen
              have hpre0 : pre = [] := by
                cases pre with
                | nil => rfl
                | cons x pre =>
                  simp only [List.cons_append, List.cons.injEq] at hpre
                  exact absurd (by rw [← hpre.1]; simp) hcap
              subst hpre0
              simp only [List.nil_append, List.cons.injEq, true_and] at hpre
              subst hpre
              refine ⟨[], b :: u, v, by rw [e1]; rfl, rfl, by simp, e2, by rw [hqe]; rfl, ?_, ?_⟩
              · rw [hqe]
                have hl := congrArg List.length e1
                simp only [List.length_cons, List.length_append] at hl hlen
                simp only [List.length_cons]
                rw [show text + 1 + u.length - text = u.length + 1 by omega]
                rw [BitVec.toInt_ofNat', Int.bmod_eq_of_le (by omega) (by omega)]
              · intro hwf v1 v2 hv hv1 hv2
                cases v1 with
                | nil => exact absurd rfl hv1
                | cons x v1 =>
                  simp only [List.cons_append, List.cons.injEq] at hv
                  exact e3 hwf.2 hwf.1 v1 v2 hv.2 hv2
            | false =>
              obtain ⟨c1, c2⟩ := e5 (by simp) q hq
              refine ⟨fun h => c1 (fun hm => h (by simp [hm])), ?_⟩
              intro pre post hpre hcap hlen
              cases pre with
              | nil => simp at hpre
              | cons x pre =>
                simp only [List.cons_append, List.cons.injEq] at hpre
                obtain ⟨rfl, hpre⟩ := hpre
                have hl := congrArg List.length e1
                simp only [List.length_cons, List.length_append] at hl hlen
                obtain ⟨u', v', w', f1, f2, f3, f4, f5, f6, f7⟩ := c2 pre post hpre (fun hm => hcap (by simp [hm])) (by omega)
                refine ⟨b :: u ++ u', v', w', ?_, ⟨b :: u, u', rfl, by simp, f2⟩, f3, f4, ?_, f6, fun hwf => f7 hwf.2⟩
                · rw [e1, f1]; simp
                · rw [f5]; simp only [List.cons_append, List.length_cons, List.length_append]; omega
      cases hw with
      | one h => exact oneTok _ _ rfl
      | neg h => exact oneTok _ _ rfl
      | negGap => exact oneTok _ _ rfl
      | negBol => exact oneTok _ _ rfl
      | gap =>
        refine oneCase (isSpaceChar b = true) (by simp) strict_gap (fun h => h.2) ?_ (step_gap ht hr)
        intro u rest
        constructor
        · rintro (⟨b', t', e, h1, h2⟩ | ⟨h1, _⟩)
          · cases e; exact ⟨h1, h2⟩
          · cases h1
        · rintro ⟨h1, h2⟩
          exact Or.inl ⟨b, u, rfl, h1, h2⟩
      | bol =>
        refine oneCase (b = 10#8) (by simp) strict_bol id ?_ (step_bol ht hr)
        intro u rest
        constructor
        · rintro (⟨t', e, h1⟩ | ⟨h1, _⟩)
          · cases e; exact ⟨rfl, h1⟩
          · cases h1
        · rintro ⟨rfl, h2⟩
          exact Or.inl ⟨u, rfl, h2⟩
      | eot =>
        have hb : b ≠ 36#8 := by
          have h36 : 36#8 ∉ b :: s := hok .eot (by simp)
          rintro rfl
          simp at h36
        rw [step_eot ht hr hb]
        exact ⟨0, st, rfl, outcome_fail hz (by rw [strict_eot]; intro h; cases h.1)⟩
      | plus => exact plusCase false rfl rfl (step_plus ht hr)
      | percent => exact plusCase true rfl rfl (step_percent ht hr)
      | star =>
        rw [step_star ht hr]
        obtain ⟨r, st', hx, so⟩ := matchStar_out hpat hr2 ihS none hz ht (List.suffix_refl _)
        refine ⟨r, st', hx, so.bool, ?_, ?_, so.kept, so.zero, ?_⟩
        · intro h1
          obtain ⟨u, v, e1, e2, _⟩ := so.found h1
          rw [strict_star]
          exact ⟨u, v, e1, Nat.zero_le _, e2⟩
        · intro hwf hm
          rcases so.bool with h0 | h1
          · exfalso
            rw [strict_star] at hm
            obtain ⟨u, v, e1, _, e3⟩ := hm
            exact so.notFound h0 hwf.2 hwf.1 u v e1 e3
          · exact h1
        · intro h1 q hq
          obtain ⟨u, v, e1, e2, e3, e4, e5⟩ := so.found h1
          obtain ⟨c1, c2⟩ := e5 rfl q hq
          refine ⟨fun h => c1 (fun hm => h (by simp [hm])), ?_⟩
          intro pre post hpre hcap hlen
          cases pre with
          | nil => simp at hpre
          | cons x pre =>
            simp only [List.cons_append, List.cons.injEq] at hpre
            obtain ⟨rfl, hpre⟩ := hpre
            have hl := congrArg List.length e1
            simp only [List.length_cons, List.length_append] at hl hlen
            obtain ⟨u', v', w', f1, f2, f3, f4, f5, f6, f7⟩ := c2 pre post hpre (fun hm => hcap (by simp [hm])) (by omega)
            refine ⟨u ++ u', v', w', ?_, ⟨u, u', rfl, by simp, f2⟩, f3, f4, ?_, f6, fun hwf => f7 hwf.2⟩
            · rw [e1, f1]; simp
            · rw [f5]; simp only [List.length_append]; omega

/-! ### `match` -/

theorem matches_mono : ∀ {toks : List Tok} {s : List Byte}, Matches false toks s → Matches true toks s
  | [], s, h => h
  | t :: r, s, h => by
    cases t with
    | one n c => exact h
    | rep n c =>
      obtain ⟨u, v, e, h1, h2⟩ := h
      refine ⟨u, v, e, h1, ?_⟩
      cases u with
      | nil => exact matches_mono h2
      | cons x u => exact h2
    | gap => exact h.imp id (fun ⟨h1, h2⟩ => ⟨h1, matches_mono h2⟩)
    | eot => exact ⟨h.1, matches_mono h.2⟩
    | bol => exact h.imp id (fun h => by cases h.1)

/-- No '@' can be at the beginning of the text. -/
def NoStart : List Tok → Prop
  | [] => True
  | .one _ _ :: _ => True
  | .rep n _ :: r => n ≠ 0 ∨ NoStart r
  | .gap :: r => NoStart r
  | .eot :: r => NoStart r
  | .bol :: _ => False

theorem noStart_matches : ∀ {toks : List Tok} {s : List Byte}, NoStart toks → Matches true toks s → Matches false toks s
  | [], s, _, h => h
  | t :: r, s, hn, h => by
    cases t with
    | one n c => exact h
    | rep n c =>
      obtain ⟨u, v, e, h1, h2⟩ := h
      refine ⟨u, v, e, h1, ?_⟩
      cases u with
      | nil => exact noStart_matches (hn.resolve_left (by simp only [List.length_nil] at h1; omega)) h2
      | cons x u => exact h2
    | gap => exact h.imp id (fun ⟨h1, h2⟩ => ⟨h1, noStart_matches hn h2⟩)
    | eot => exact ⟨h.1, noStart_matches hn h.2⟩
    | bol => exact absurd hn (by simp [NoStart])

/-- '@' stands at the beginning of the pattern (perhaps behind a '*') or behind something that takes a character. -/
def StartOK (toks : List Tok) : Prop :=
  NoStart toks ∨ (∃ r, toks = .bol :: r ∧ NoStart r) ∨ (∃ r, toks = .rep 0 false :: .bol :: r ∧ NoStart r)

/-- What `match` does with the two calls of `_match`. -/
theorem match_out {m : Mem} {text rp : Nat} {s re : List Byte} {toks : List Tok} (hp : Pattern toks re) (ht : m.IsStr text s) (hr : m.IsStr rp re)
    (hok : ∀ t ∈ toks, okFor s t) (st : Option TextMatch) :
    ∃ r st', «match» m text rp st = .ok (r, st') ∧
      ((∃ st0 pre rest, toks = pre ++ rest ∧ (pre = [.bol] ∨ pre = [.rep 0 false, .bol]) ∧ r = 1 ∧ (st0 = none ↔ st = none) ∧ Outcome rest text s st0 1 st') ∨
       (∃ st0, (∀ rest, (toks = .bol :: rest ∨ toks = .rep 0 false :: .bol :: rest) → WF rest → ¬ Matches false (strict rest) s) ∧ (st0 = none ↔ st = none) ∧
        Outcome toks text s st0 r st')) := by
  have hzero : ∀ st : Option TextMatch, Zero (st.map fun q => { q with len := 0 }) := by
    intro st q hq
    cases st with
    | none => cases hq
    | some a => cases hq; rfl
  have plain : (∀ rest, toks ≠ .bol :: rest ∧ toks ≠ .rep 0 false :: .bol :: rest) → «match» m text rp st = match_ m text rp st → 
      ∃ r st', «match» m text rp st = .ok (r, st') ∧
      ((∃ st0 pre rest, toks = pre ++ rest ∧ (pre = [.bol] ∨ pre = [.rep 0 false, .bol]) ∧ r = 1 ∧ (st0 = none ↔ st = none) ∧ Outcome rest text s st0 1 st') ∨
       (∃ st0, (∀ rest, (toks = .bol :: rest ∨ toks = .rep 0 false :: .bol :: rest) → WF rest → ¬ Matches false (strict rest) s) ∧ (st0 = none ↔ st = none) ∧
        Outcome toks text s st0 r st')) := by
    intro h1 h2
    obtain ⟨r, st', hx, ho⟩ := matchLoop_out hp ht hr hok (hzero st)
    rw [h2, match_, hx]
    refine ⟨r, st', rfl, Or.inr ⟨_, ?_, by simp, ho⟩⟩
    rintro rest (h | h)
    · exact absurd h (h1 rest).1
    · exact absurd h (h1 rest).2
  have twice : ∀ pre w rest re', toks = pre ++ rest → (pre = [.bol] ∨ pre = [.rep 0 false, .bol]) → re = w ++ re' → Pattern rest re' →
      «match» m text rp st = (do
        let r ← match_ m text (rp + w.length) st
        if r.1 = 1 then pure r else match_ m text rp r.2) →
      ∃ r st', «match» m text rp st = .ok (r, st') ∧
      ((∃ st0 pre rest, toks = pre ++ rest ∧ (pre = [.bol] ∨ pre = [.rep 0 false, .bol]) ∧ r = 1 ∧ (st0 = none ↔ st = none) ∧ Outcome rest text s st0 1 st') ∨
       (∃ st0, (∀ rest, (toks = .bol :: rest ∨ toks = .rep 0 false :: .bol :: rest) → WF rest → ¬ Matches false (strict rest) s) ∧ (st0 = none ↔ st = none) ∧
        Outcome toks text s st0 r st')) := by
    intro pre w rest re' h1 h2 h3 h4 h5
    have hr2 : m.IsStr (rp + w.length) re' := isStr_tail (by rw [← h3]; exact hr)
    obtain ⟨r, st', hx, ho⟩ := matchLoop_out h4 ht hr2 (fun t ht => hok t (by rw [h1]; simp [ht])) (hzero st)
    rw [h5, match_, hx]
    simp only [Res.ok_bind]
    rcases ho.bool with h0 | h01
    · subst h0
      rw [if_neg (by decide), match_]
      obtain ⟨r2, st2, hx2, ho2⟩ := matchLoop_out hp ht hr hok (hzero st')
      rw [hx2]
      refine ⟨r2, st2, rfl, Or.inr ⟨_, ?_, by rw [Option.map_eq_none_iff, ho.kept]; simp, ho2⟩⟩
      intro rest' hrest hwf hm
      have : rest' = rest := by
        rw [h1] at hrest
        rcases h2 with rfl | rfl <;> simp at hrest <;> exact hrest.symm
      subst this
      have := ho.complete hwf hm
      omega
    · subst h01
      rw [if_pos rfl]
      exact ⟨1, st', rfl, Or.inl ⟨_, pre, rest, h1, h2, rfl, by simp, ho⟩⟩
  have hdef : «match» m text rp st = (if re.headD 0#8 = 42#8 then (do
        let d ← m.load (rp + 1)
        if d = 64#8 then do
          let r ← match_ m text (rp + 2) st
          if r.1 = 1 then pure r else match_ m text rp r.2
        else match_ m text rp st)
      else if re.headD 0#8 = 64#8 then (do
        let r ← match_ m text (rp + 1) st
        if r.1 = 1 then pure r else match_ m text rp r.2)
      else match_ m text rp st) := by
    unfold «match»
    rw [isStr_first hr]
    rfl
  cases hp with
  | nil => exact plain (by simp) (by rw [hdef]; rfl)
  | @cons t w ts re' h1 h2 =>
    by_cases h42 : (w ++ re').headD 0#8 = 42#8
    · rw [if_pos h42] at hdef
      obtain ⟨e1, e2⟩ := spells_head h1 h42 (by decide)
      have e3 : t = .rep 0 false := by
        rcases e2 with ⟨_, h⟩ | ⟨_, h⟩ | ⟨h, _⟩
        · cases h
        · cases h
        · exact h
      subst e1 e3
      rw [isStr_first (isStr_cons.1 hr).2.2] at hdef
      simp only [Res.ok_bind] at hdef
      cases h2 with
      | nil => exact plain (by simp) hdef
      | @cons t2 w2 ts2 re2 g1 g2 =>
        by_cases h64 : (w2 ++ re2).headD 0#8 = 64#8
        · have hd : «match» m text rp st = (do
              let r ← match_ m text (rp + 2) st
              if r.1 = 1 then pure r else match_ m text rp r.2) := by
            rw [hdef]; exact if_pos h64
          cases g1 with
          | bol => exact twice [.rep 0 false, .bol] [42#8, 64#8] ts2 re2 rfl (Or.inr rfl) rfl g2 hd
          | one h =>
            exfalso
            cases h with
            | plain hx0 hxs =>
              simp only [List.singleton_append, List.headD_cons] at h64
              exact hxs (by rw [h64]; decide)
            | _ => simp at h64
          | _ => simp at h64
        · have hd : «match» m text rp st = match_ m text rp st := by
            rw [hdef]; exact if_neg h64
          refine plain ?_ hd
          intro rest
          refine ⟨by simp, ?_⟩
          intro e
          simp only [List.cons.injEq, true_and] at e
          rw [e.1] at g1
          cases g1
          simp at h64
    · rw [if_neg h42] at hdef
      by_cases h64 : (w ++ re').headD 0#8 = 64#8
      · rw [if_pos h64] at hdef
        cases h1 with
        | bol => exact twice [.bol] [64#8] ts re' rfl (Or.inl rfl) rfl h2 hdef
        | one h =>
          exfalso
          cases h with
          | plain hx0 hxs =>
            simp only [List.singleton_append, List.headD_cons] at h64
            exact hxs (by rw [h64]; decide)
          | _ => simp at h64
        | _ => simp at h64
      · rw [if_neg h64] at hdef
        refine plain ?_ hdef
        intro rest
        constructor
        · intro e
          simp only [List.cons.injEq] at e
          rw [e.1] at h1
          cases h1
          simp at h64
        · intro e
          simp only [List.cons.injEq] at e
          rw [e.1] at h1
          cases h1
          simp at h42

/-- C52 in full. -/
def C52_full : Prop := ∀ (m : Mem) (text rp : Nat) (s re : List Byte) (toks : List Tok) (st : Option TextMatch), Pattern toks re → m.IsStr text s → m.IsStr rp re →
  ∃ r st', «match» m text rp st = .ok (r, st') ∧ (r = 1 ↔ Matches true toks s) ∧ (r = 0 ↔ ¬ Matches true toks s)

theorem prefix_matches {pre rest : List Tok} {s : List Byte} (h : pre = [.bol] ∨ pre = [.rep 0 false, .bol]) (hm : Matches true rest s) :
    Matches true (pre ++ rest) s := by
  rcases h with rfl | rfl
  · exact Or.inr ⟨rfl, hm⟩
  · exact ⟨[], s, rfl, Nat.zero_le _, Or.inr ⟨rfl, hm⟩⟩

/-- C52 (partial: no negated character class, and a text without the characters for which the classes and '$' are wrong): what `match` accepts
is described by the pattern. -/
theorem C52_sound_partial {m : Mem} {text rp : Nat} {s re : List Byte} {toks : List Tok} (hp : Pattern toks re) (ht : m.IsStr text s) (hr : m.IsStr rp re)
    (hok : ∀ t ∈ toks, okFor s t) (st : Option TextMatch) :
    ∃ r st', «match» m text rp st = .ok (r, st') ∧ (r = 0 ∨ r = 1) ∧ (r = 1 → Matches true toks s) := by
  obtain ⟨r, st', hx, h⟩ := match_out hp ht hr hok st
  refine ⟨r, st', hx, ?_⟩
  rcases h with ⟨st0, pre, rest, h1, h2, h3, _, ho⟩ | ⟨st0, _, _, ho⟩
  · refine ⟨Or.inr h3, fun _ => ?_⟩
    rw [h1]
    exact prefix_matches h2 (matches_mono (strict_matches (ho.sound rfl)))
  · exact ⟨ho.bool, fun h => matches_mono (strict_matches (ho.sound h))⟩

/-- C52 (partial: moreover the pattern is of the form `WF`, '@' is at its beginning or behind something that takes a character, and there is no
'+' or '%' at its end): `match` accepts exactly the texts that the pattern describes. -/
theorem C52_partial {m : Mem} {text rp : Nat} {s re : List Byte} {toks : List Tok} (hp : Pattern toks re) (ht : m.IsStr text s) (hr : m.IsStr rp re)
    (hok : ∀ t ∈ toks, okFor s t) (hwf : WF toks) (hstart : StartOK toks) (hlast : ∀ n c, toks.getLast? = some (.rep n c) → n ≠ 1) (st : Option TextMatch) :
    ∃ r st', «match» m text rp st = .ok (r, st') ∧ (r = 1 ↔ Matches true toks s) ∧ (r = 0 ↔ ¬ Matches true toks s) := by
  have hst : ∀ l : List Tok, (∀ n c, l.getLast? = some (.rep n c) → n ≠ 1) → strict l = l := by
    intro l
    induction l with
    | nil => intro _; rfl
    | cons t l ih =>
      intro hl
      rw [strict]
      by_cases hn : l = []
      · subst hn
        rw [if_pos rfl]
        cases t with
        | rep n c => simp [wider, hl n c (by simp)]
        | _ => rfl
      · rw [if_neg hn, ih]
        intro n c hc
        refine hl n c ?_
        rw [List.getLast?_cons]
        rw [hc]
        rfl
  obtain ⟨r, st', hx, h⟩ := match_out hp ht hr hok st
  have key : (r = 0 ∨ r = 1) ∧ (r = 1 ↔ Matches true toks s) := by
    rcases h with ⟨st0, pre, rest, h1, h2, h3, _, ho⟩ | ⟨st0, hno, _, ho⟩
    · refine ⟨Or.inr h3, fun _ => ?_, fun _ => h3⟩
      rw [h1]
      exact prefix_matches h2 (matches_mono (strict_matches (ho.sound rfl)))
    · refine ⟨ho.bool, fun h => matches_mono (strict_matches (ho.sound h)), fun hm => ?_⟩
      refine ho.complete hwf ?_
      rw [hst toks hlast]
      have hrest : ∀ rest, (toks = .bol :: rest ∨ toks = .rep 0 false :: .bol :: rest) → NoStart rest → ¬ Matches true rest s := by
        intro rest hr hns hm'
        refine hno rest hr ?_ ?_
        · rcases hr with rfl | rfl
          · exact hwf
          · exact hwf.2
        · rw [hst rest]
          · exact noStart_matches hns hm'
          · intro n c hc
            rcases hr with rfl | rfl
            · exact hlast n c (by rw [List.getLast?_cons, hc]; rfl)
            · exact hlast n c (by rw [List.getLast?_cons, List.getLast?_cons, hc]; rfl)
      rcases hstart with hs | ⟨rest, e, hs⟩ | ⟨rest, e, hs⟩
      · exact noStart_matches hs hm
      · have hr' := hrest rest (Or.inl e) hs
        subst e
        rcases hm with h | ⟨_, h⟩
        · exact Or.inl h
        · exact absurd h hr'
      · have hr' := hrest rest (Or.inr e) hs
        subst e
        obtain ⟨u, v, e, h1, h2⟩ := hm
        refine ⟨u, v, e, h1, ?_⟩
        cases u with
        | nil =>
          simp only [List.nil_append] at e
          subst e
          rcases h2 with h | ⟨_, h⟩
          · exact Or.inl h
          · exact absurd h hr'
        | cons x u => exact h2
  refine ⟨r, st', hx, key.2, ?_⟩
  rcases key.1 with h | h
  · exact ⟨fun _ hm => (by have := key.2.2 hm; omega), fun _ => h⟩
  · exact ⟨fun h0 => by omega, fun hn => absurd (key.2.1 h) hn⟩

/-- C52, the extraction (same limits as `C52_sound_partial`): without a match the length is 0; with one, the struct tells the place `v` of the first '%':
what is before it is described by the pattern before the '%', what is behind it by the pattern behind it, and (for a pattern of the form `WF`) no shorter
nonempty `v` would do.  (A '+' or '%' at the end of the pattern counts for two characters.) -/
theorem C52_extract_partial {m : Mem} {text rp : Nat} {s re : List Byte} {toks : List Tok} (hp : Pattern toks re) (ht : m.IsStr text s) (hr : m.IsStr rp re)
    (hok : ∀ t ∈ toks, okFor s t) (hlen : s.length < 2147483648) (q0 : TextMatch) :
    ∃ r q, «match» m text rp (some q0) = .ok (r, some q) ∧ (r = 0 → q.len = 0) ∧ (.rep 1 true ∉ toks → q.len = 0) ∧
      (r = 1 → ∀ pre post, toks = pre ++ .rep 1 true :: post → .rep 1 true ∉ pre →
        ∃ u v w, s = u ++ v ++ w ∧ Matches true pre u ∧ v ≠ [] ∧ Matches false (strict post) w ∧ q.pos = text + u.length ∧ q.len = v.length ∧
          (WF toks → ∀ v1 v2, v = v1 ++ v2 → v1 ≠ [] → v2 ≠ [] → ¬ Matches false (strict post) (v2 ++ w))) := by
  obtain ⟨r, st', hx, h⟩ := match_out hp ht hr hok (some q0)
  rcases h with ⟨st0, pre0, rest, h1, h2, h3, hk, ho⟩ | ⟨st0, hno, hk, ho⟩
  · obtain ⟨q, hq⟩ : ∃ q, st' = some q := Option.ne_none_iff_exists'.1 (fun e => by cases hk.1 (ho.kept.1 e))
    obtain ⟨c1, c2⟩ := ho.cap rfl q hq
    refine ⟨r, q, by rw [hx, hq], by omega, fun hn => c1 (fun hm => hn (by rw [h1]; simp [hm])), ?_⟩
    intro _ pre post hpre hcap
    have hsplit : ∃ pre', pre = pre0 ++ pre' ∧ rest = pre' ++ .rep 1 true :: post := by
      rw [h1] at hpre
      rcases h2 with rfl | rfl
      · cases pre with
        | nil => simp at hpre
        | cons x pre =>
          simp only [List.cons_append, List.nil_append, List.cons.injEq] at hpre
          exact ⟨pre, by rw [hpre.1]; rfl, hpre.2⟩
      · cases pre with
        | nil => simp at hpre
        | cons x pre =>
          simp only [List.cons_append, List.nil_append, List.cons.injEq] at hpre
          cases pre with
          | nil => simp at hpre
          | cons y pre =>
            simp only [List.cons_append, List.cons.injEq] at hpre
            exact ⟨pre, by rw [hpre.1, hpre.2.1]; rfl, hpre.2.2⟩
    obtain ⟨pre', e1, e2⟩ := hsplit
    obtain ⟨u, v, w, f1, f2, f3, f4, f5, f6, f7⟩ := c2 pre' post e2 (fun hm => hcap (by rw [e1]; simp [hm])) hlen
    refine ⟨u, v, w, f1, ?_, f3, f4, f5, f6, fun hwf => f7 ?_⟩
    · rw [e1]; exact prefix_matches h2 (matches_mono f2)
    · rw [h1] at hwf
      rcases h2 with rfl | rfl
      · exact hwf
      · exact hwf.2
  · obtain ⟨q, hq⟩ : ∃ q, st' = some q := Option.ne_none_iff_exists'.1 (fun e => by cases hk.1 (ho.kept.1 e))
    refine ⟨r, q, by rw [hx, hq], fun h0 => ho.zero h0 q hq, ?_, ?_⟩
    · intro hn
      rcases ho.bool with h0 | h1
      · exact ho.zero h0 q hq
      · exact (ho.cap h1 q hq).1 hn
    · intro h1 pre post hpre hcap
      obtain ⟨u, v, w, f1, f2, f3, f4, f5, f6, f7⟩ := (ho.cap h1 q hq).2 pre post hpre hcap hlen
      exact ⟨u, v, w, f1, matches_mono f2, f3, f4, f5, f6, f7⟩

/-! ### Where it fails -/

theorem match_plain {m : Mem} {text rp : Nat} {re : List Byte} {st : Option TextMatch} (hr : m.IsStr rp re) (h1 : re.headD 0#8 ≠ 42#8) (h2 : re.headD 0#8 ≠ 64#8) :
    «match» m text rp st = matchLoop m text rp (st.map fun q => { q with len := 0 }) := by
  unfold «match»
  rw [isStr_first hr]
  simp only [Res.ok_bind]
  rw [if_neg h1, if_neg h2, match_]

/-- "+" does not accept a text of one character. -/
theorem C52_plus_refuted {m : Mem} {text rp : Nat} {b : Byte} (ht : m.IsStr text [b]) (hr : m.IsStr rp [43#8]) (st : Option TextMatch) :
    Matches true [.rep 1 false] [b] ∧ ∃ st', «match» m text rp st = .ok (0, st') := by
  refine ⟨⟨[b], [], rfl, by simp, rfl⟩, ?_⟩
  rw [match_plain hr (by decide) (by decide), step_plus ht hr]
  exact ⟨_, rfl⟩

theorem C52_refuted : ¬ C52_full := by
  intro h
  let m := objects [(16, [97#8, 0#8]), (32, [43#8, 0#8])]
  have ht : m.IsStr 16 [97#8] := ⟨by decide, by decide⟩
  have hr : m.IsStr 32 [43#8] := ⟨by decide, by decide⟩
  obtain ⟨r, st', h1, h2, _⟩ := h m 16 32 [97#8] [43#8] [.rep 1 false] none (.cons .plus .nil) ht hr
  obtain ⟨g1, st2, g2⟩ := C52_plus_refuted ht hr none
  rw [g2] at h1
  simp only [Res.ok.injEq, Prod.mk.injEq] at h1
  have := h2.2 g1
  omega

/-- A negated character class which is not met by the first character ends the matching: whatever is behind it in the pattern, the text is accepted. -/
theorem C52_negated_refuted {m : Mem} {text rp : Nat} {b : Byte} {s l re : List Byte} (ht : m.IsStr text (b :: s)) (hr : m.IsStr rp (33#8 :: 91#8 :: (l ++ 93#8 :: re)))
    (hl : 93#8 ∉ l) (hb : b ∉ l) (hb93 : b ≠ 93#8) (st : Option TextMatch) : ∃ st', «match» m text rp st = .ok (1, st') := by
  rw [match_plain hr (by simp) (by simp), matchLoop_neg ht hr]
  simp only [List.headD_cons]
  rw [matchStep, if_neg (by decide), if_pos rfl]
  rw [(classFind_eq (t := b) (isStr_cons.1 (isStr_cons.1 hr).2.2).2.2 hl hb93).2 hb]
  exact ⟨_, rfl⟩

/-- So "![a]b" accepts "cd". -/
theorem C52_negated_example : ¬ Matches true [.one true (.set [97#8]), .one false (.lit 98#8)] [99#8, 100#8] ∧
    ∃ st', «match» (objects [(16, [99#8, 100#8, 0#8]), (32, [33#8, 91#8, 97#8, 93#8, 98#8, 0#8])]) 16 32 none = .ok (1, st') := by
  refine ⟨?_, C52_negated_refuted (b := 99#8) (s := [100#8]) (l := [97#8]) (re := [98#8]) ⟨by decide, by decide⟩ ⟨by decide, by decide⟩ (by decide) (by decide) (by decide) none⟩
  rintro ⟨b, t, e, _, b', t', e', h, _⟩
  cases e
  cases e'
  revert h
  decide

/-- The character ']' is accepted by every class. -/
theorem C52_bracket_refuted {m : Mem} {text rp : Nat} {l : List Byte} (ht : m.IsStr text [93#8]) (hr : m.IsStr rp (91#8 :: (l ++ [93#8]))) (hl : 93#8 ∉ l)
    (st : Option TextMatch) : ¬ Matches true [.one false (.set l)] [93#8] ∧ ∃ st', «match» m text rp st = .ok (1, st') := by
  refine ⟨?_, ?_⟩
  · rintro ⟨b, t, e, h, _⟩
    cases e
    simp [CClass.has, hl] at h
  · have hfind : ∀ (l : List Byte) (p : Nat), m.IsStr p (l ++ [93#8]) → 93#8 ∉ l → classFind m 93#8 p = .ok (some (p + l.length)) := by
      intro l
      induction l with
      | nil =>
        intro p h _
        rw [classFind, load_some (isStr_cons.1 h).1]
        simp
      | cons c l ih =>
        intro p h hl
        simp only [List.mem_cons, not_or] at hl
        obtain ⟨h1, h2, h3⟩ := isStr_cons.1 h
        rw [classFind, load_some h1]
        simp only [Res.ok_bind]
        rw [if_neg (by rintro (h | h); exact h2 h; exact hl.1 h.symm), if_neg (fun e => hl.1 e.symm), ih _ h3 hl.2, List.length_cons]
        congr 2
        omega
    have hr2 := (isStr_cons.1 hr).2.2
    have hr3 := isStr_tail hr2
    rw [match_plain hr (by simp) (by simp), matchLoop_cons ht hr (by simp)]
    simp only [List.headD_cons]
    rw [matchStep, if_neg (by decide), if_pos rfl, hfind l _ hr2 hl]
    simp only [Res.ok_bind]
    rw [classEnd_eq (l := []) (rest := []) hr3 (by simp)]
    simp only [Res.ok_bind, List.length_nil, Nat.add_zero]
    rw [load_some (isStr_cons.1 hr3).1]
    simp only [Res.ok_bind]
    rw [if_neg (by decide), if_neg (by decide), matchLoop, isStr_first (isStr_cons.1 ht).2.2]
    simp only [Res.ok_bind, List.headD_nil, if_true]
    rw [matchEnd_eq .nil (isStr_cons.1 hr3).2.2]
    exact ⟨_, rfl⟩

/-- "$" accepts the text "$". -/
theorem C52_dollar_refuted {m : Mem} {text rp : Nat} (ht : m.IsStr text [36#8]) (hr : m.IsStr rp [36#8]) (st : Option TextMatch) :
    ¬ Matches true [.eot] [36#8] ∧ ∃ st', «match» m text rp st = .ok (1, st') := by
  refine ⟨(by rintro ⟨h, _⟩; cases h), ?_⟩
  rw [match_plain hr (by decide) (by decide), matchLoop_cons ht hr (by decide)]
  simp only [List.headD_cons]
  rw [matchStep]
  repeat rw [if_neg (by decide)]
  rw [matchLoop, isStr_first (isStr_cons.1 ht).2.2]
  simp only [Res.ok_bind, List.headD_nil, if_true]
  rw [matchEnd_eq .nil (isStr_cons.1 hr).2.2]
  exact ⟨_, rfl⟩

/-- "%#*" (in the examples of the documentation, behind "*@") does not accept a text "xy" without a space: '#' stands for the end of the text only at the end of
the pattern. -/
theorem C52_gap_refuted {m : Mem} {text rp : Nat} {x y : Byte} (hy : isSpaceChar y = false) (ht : m.IsStr text [x, y]) (hr : m.IsStr rp [37#8, 35#8, 42#8])
    (st : Option TextMatch) : Matches true [.rep 1 true, .gap, .rep 0 false] [x, y] ∧ ∃ st', «match» m text rp st = .ok (0, st') := by
  refine ⟨⟨[x, y], [], rfl, by simp, Or.inr ⟨rfl, [], [], rfl, by simp, rfl⟩⟩, ?_⟩
  have ht2 := (isStr_cons.1 ht).2.2
  have hr2 := (isStr_cons.1 hr).2.2
  rw [match_plain hr (by decide) (by decide), step_percent ht hr, if_neg (by simp), matchStar, load_some (isStr_cons.1 hr2).1]
  simp only [Res.ok_bind]
  rw [if_neg (by decide), starLoop, match_, step_gap ht2 hr2, hy]
  simp only [Res.ok_bind, Bool.false_eq_true, if_false, ne_eq, not_true_eq_false]
  rw [isStr_first (isStr_cons.1 ht2).2.2]
  simp only [Res.ok_bind, List.headD_nil, if_true]
  rw [load_some (isStr_cons.1 hr2).1]
  simp only [Res.ok_bind, true_or, if_true]
  rw [load_some (isStr_cons.1 (isStr_cons.1 hr2).2.2).1]
  simp only [Res.ok_bind]
  rw [if_neg (by decide)]
  exact ⟨_, rfl⟩

/-- "a%c*" and the text "abbcd": the hypotheses hold, '%' is "bb". -/
example : «match» (objects [(16, [97#8, 98#8, 98#8, 99#8, 100#8, 0#8]), (32, [97#8, 37#8, 99#8, 42#8, 0#8])]) 16 32 (some ⟨0, 7⟩) = .ok (1, some ⟨17, 2⟩) := by
  have ht : (objects [(16, [97#8, 98#8, 98#8, 99#8, 100#8, 0#8]), (32, [97#8, 37#8, 99#8, 42#8, 0#8])]).IsStr 16 [97#8, 98#8, 98#8, 99#8, 100#8] :=
    ⟨by decide, by decide⟩
  have hr : (objects [(16, [97#8, 98#8, 98#8, 99#8, 100#8, 0#8]), (32, [97#8, 37#8, 99#8, 42#8, 0#8])]).IsStr 32 [97#8, 37#8, 99#8, 42#8] := ⟨by decide, by decide⟩
  have hp : Pattern [.one false (.lit 97#8), .rep 1 true, .one false (.lit 99#8), .rep 0 false] [97#8, 37#8, 99#8, 42#8] :=
    .cons (.one (.plain (by decide) (by decide))) (.cons .percent (.cons (.one (.plain (by decide) (by decide))) (.cons .star .nil)))
  have hok : ∀ t ∈ [Tok.one false (.lit 97#8), .rep 1 true, .one false (.lit 99#8), .rep 0 false], okFor [97#8, 98#8, 98#8, 99#8, 100#8] t := by
    intro t ht
    simp only [List.mem_cons, List.not_mem_nil, or_false] at ht
    rcases ht with rfl | rfl | rfl | rfl <;> trivial
  have hwf : WF [Tok.one false (.lit 97#8), .rep 1 true, .one false (.lit 99#8), .rep 0 false] := ⟨Or.inr (by decide), Or.inl rfl, trivial⟩
  obtain ⟨r, st', h1, h2, _⟩ := C52_partial hp ht hr hok hwf (Or.inl trivial) (by intro n c h; simp at h; omega) (some ⟨0, 7⟩)
  have hr1 : r = 1 := h2.2 ⟨97#8, _, rfl, by decide, [98#8, 98#8], [99#8, 100#8], rfl, by decide, 99#8, _, rfl, by decide, [100#8], [], rfl, by decide, rfl⟩
  obtain ⟨r', q, g1, _, _, g4⟩ := C52_extract_partial hp ht hr hok (by decide) ⟨0, 7⟩
  rw [h1] at g1
  cases g1
  subst hr1
  obtain ⟨u, v, w, f1, f2, f3, f4, f5, f6, f7⟩ := g4 rfl [.one false (.lit 97#8)] _ rfl (by simp)
  obtain ⟨b, t, rfl, _, rfl⟩ := f2
  rw [strict_one] at f4
  obtain ⟨c, t', rfl, hc, _⟩ := f4
  have hc : c = 99#8 := by
    simp only [CClass.has, ne_eq, Bool.not_eq_false, decide_eq_true_eq] at hc
    exact hc.symm
  subst hc
  have hv : v.length = 2 := by
    match v, f1 with
    | [], _ => exact absurd rfl f3
    | [x], f1 => simp at f1
    | [x, y], _ => rfl
    | [x, y, z], f1 => simp at f1
    | x :: y :: z :: z' :: v, f1 => simp at f1
  rw [h1]
  rw [hv] at f6
  cases q
  simp only at f5 f6
  rw [f5, f6]
  rfl

/-- C52: "a%c*" and the text "abbcd" again: a match is no accident; and the broken pattern "[a" is answered too. -/
example : (∃ r st', «match» (objects [(16, [97#8, 98#8, 98#8, 99#8, 100#8, 0#8]), (32, [97#8, 37#8, 99#8, 42#8, 0#8])]) 16 32 none = .ok (r, st') ∧
      (r = 1 → Matches true [.one false (.lit 97#8), .rep 1 true, .one false (.lit 99#8), .rep 0 false] [97#8, 98#8, 98#8, 99#8, 100#8])) ∧
    ∃ x, «match» (objects [(16, [97#8, 0#8]), (32, [91#8, 97#8, 0#8])]) 16 32 none = .ok x := by
  refine ⟨?_, C52_safe (s := [97#8]) (re := [91#8, 97#8]) ⟨by decide, by decide⟩ ⟨by decide, by decide⟩ none⟩
  obtain ⟨r, st', h1, -, h2⟩ := C52_sound_partial (toks := [.one false (.lit 97#8), .rep 1 true, .one false (.lit 99#8), .rep 0 false])
    (m := objects [(16, [97#8, 98#8, 98#8, 99#8, 100#8, 0#8]), (32, [97#8, 37#8, 99#8, 42#8, 0#8])]) (text := 16) (rp := 32)
    (s := [97#8, 98#8, 98#8, 99#8, 100#8]) (re := [97#8, 37#8, 99#8, 42#8])
    (.cons (.one (.plain (by decide) (by decide))) (.cons .percent (.cons (.one (.plain (by decide) (by decide))) (.cons .star .nil))))
    ⟨by decide, by decide⟩ ⟨by decide, by decide⟩ (by
      intro t ht
      simp only [List.mem_cons, List.not_mem_nil, or_false] at ht
      rcases ht with rfl | rfl | rfl | rfl <;> trivial) none
  exact ⟨r, st', h1, h2⟩

end Minilib

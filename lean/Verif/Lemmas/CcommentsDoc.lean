import Verif.Lemmas.Ccomments
import Verif.Spec.Ccomments
/-
Lemmas on the lines of a text with comments (Props/Ccomments).
-/

set_option autoImplicit false

namespace Minilib
open Spec

/-- The bytes `l` are at index `i`. -/
def SitsAt (B : Nat → Byte) (i : Nat) : List Byte → Prop
  | [] => True
  | c :: l => B i = c ∧ SitsAt B (i + 1) l

theorem sitsAt_append {B : Nat → Byte} : ∀ {a b : List Byte} {i : Nat}, SitsAt B i (a ++ b) ↔ SitsAt B i a ∧ SitsAt B (i + a.length) b := by
  intro a
  induction a with
  | nil => intro b i; simp [SitsAt]
  | cons c a ih =>
    intro b i
    simp only [List.cons_append, SitsAt, ih, List.length_cons, and_assoc]
    rw [show i + 1 + a.length = i + (a.length + 1) by omega]

theorem sitsAt_get {B : Nat → Byte} : ∀ {l : List Byte} {i : Nat}, SitsAt B i l → ∀ t (h : t < l.length), B (i + t) = l[t] := by
  intro l
  induction l with
  | nil => intro i _ t h; cases h
  | cons c l ih =>
    intro i hs t h
    cases t with
    | zero => exact hs.1
    | succ t =>
      have := ih hs.2 t (by simpa using h)
      rw [show i + (t + 1) = i + 1 + t by omega, this]
      rfl

theorem sitsAt_of_get {B : Nat → Byte} : ∀ {l : List Byte} {i : Nat}, (∀ t (h : t < l.length), B (i + t) = l[t]) → SitsAt B i l := by
  intro l
  induction l with
  | nil => intro i _; exact True.intro
  | cons c l ih =>
    intro i h
    refine ⟨h 0 (by simp), ih ?_⟩
    intro t ht
    have := h (t + 1) (by simpa using ht)
    rw [show i + 1 + t = i + (t + 1) by omega, this]
    rfl

theorem sitsAt_take {B : Nat → Byte} {l : List Byte} {i n : Nat} (h : SitsAt B i l) : SitsAt B i (l.take n) := by
  rw [← List.take_append_drop n l, sitsAt_append] at h
  exact h.1

theorem sitsAt_drop {B : Nat → Byte} {l : List Byte} {i n : Nat} (h : SitsAt B i l) (hn : n ≤ l.length) : SitsAt B (i + n) (l.drop n) := by
  rw [← List.take_append_drop n l, sitsAt_append, List.length_take, Nat.min_eq_left hn] at h
  exact h.2

theorem rcLow_ascii {c : Byte} (h : c.toNat < 128) : rcLow c = decide (c.toNat ≤ 32) := by
  have : c.toInt = c.toNat := by
    rw [BitVec.toInt_eq_toNat_cond, if_pos (by omega)]
  rw [rcLow, this]
  by_cases h : c.toNat ≤ 32
  · simp [h]; omega
  · simp [h]; omega

/-- The inside of a string: quotes are behind a backslash, and it does not end with one. -/
theorem strBody_sits {B : Nat → Byte} {v : List Byte} (hv : StrBody v) : ∀ {i : Nat}, 1 ≤ i → SitsAt B i v → B (i - 1) ≠ 92#8 →
    (∀ t, i ≤ t → t < i + v.length → B t = 34#8 → B (t - 1) = 92#8) ∧ B (i + v.length - 1) ≠ 92#8 := by
  induction hv with
  | nil => intro i _ _ h; exact ⟨fun t h1 h2 => by simp at h2; omega, by simpa using h⟩
  | chr c l h34 h92 _ ih =>
    intro i h1 hs h
    obtain ⟨a, b⟩ := ih (i := i + 1) (by omega) hs.2 (by simpa [hs.1] using h92)
    refine ⟨fun t t1 t2 t3 => ?_, ?_⟩
    · by_cases ht : t = i
      · rw [ht, hs.1] at t3; exact absurd t3 h34
      · exact a t (by omega) (by simp at t2; omega) t3
    · rw [List.length_cons, show i + (l.length + 1) - 1 = i + 1 + l.length - 1 by omega]
      exact b
  | esc c l h92 _ ih =>
    intro i h1 hs h
    obtain ⟨a, b⟩ := ih (i := i + 2) (by omega) hs.2.2 (by rw [show i + 2 - 1 = i + 1 by omega, hs.2.1]; exact h92)
    refine ⟨fun t t1 t2 t3 => ?_, ?_⟩
    · by_cases ht : t = i
      · rw [ht, hs.1] at t3; exact absurd t3 (by decide)
      · by_cases ht' : t = i + 1
        · rw [ht', Nat.add_sub_cancel]; exact hs.1
        · exact a t (by omega) (by simp at t2; omega) t3
    · simp only [List.length_cons]
      rw [show i + (l.length + 1 + 1) - 1 = i + 2 + l.length - 1 by omega]
      exact b

/-- Code is passed. -/
theorem rcRest_code {B : Nat → Byte} {p start len : Nat} (hp : p + len < 1000000) (hend : B (p + len) ≠ 34#8 ∧ B (p + len) ≠ 47#8)
    {u : List Byte} (hu : Code u) : ∀ (k0 : Nat) (s : RcScan), SitsAt B (p + s.j) u → s.j + u.length ≤ len →
    (u.getLast? = some 47#8 → B (p + (s.j + u.length)) ≠ 42#8 ∧ B (p + (s.j + u.length)) ≠ 47#8) →
    ∃ k', rcRest B p start len (k0 + u.length + 1) s = rcRest B p start len (k0 + k' + 1) { s with j := s.j + u.length } := by
  induction hu with
  | nil => intro k0 s _ _ _; exact ⟨0, rfl⟩
  | chr c l h34 h47 _ ih =>
    intro k0 s hs hl hx
    simp only [List.length_cons] at hl hx ⊢
    rw [rcRest_chr hp hend _ s (by omega) (by rw [hs.1]; exact ⟨h34, h47⟩)]
    obtain ⟨k', e⟩ := ih (k0 + 1) { s with j := s.j + 1 } (by simpa [Nat.add_assoc] using hs.2) (by simp only; omega)
      (by
        intro h
        simp only
        rw [show s.j + 1 + l.length = s.j + (l.length + 1) by omega]
        refine hx ?_
        rw [List.getLast?_cons]
        simp [h])
    simp only at e
    refine ⟨k' + 1, ?_⟩
    rw [show k0 + (l.length + 1) + 1 = k0 + 1 + l.length + 1 by omega, e, show k0 + 1 + k' + 1 = k0 + (k' + 1) + 1 by omega,
      show s.j + 1 + l.length = s.j + (l.length + 1) by omega]
  | slashEnd =>
    intro k0 s hs hl hx
    have := hx rfl
    refine ⟨0, ?_⟩
    rw [show k0 + [47#8].length + 1 = (k0 + 1) + 1 from rfl, rcRest_slash hp _ s (by simp at hl; omega) hs.1 this]
    rfl
  | slash d l h42 h47 _ ih =>
    intro k0 s hs hl hx
    simp only [List.length_cons] at hl hx ih ⊢
    rw [show k0 + (l.length + 1 + 1) + 1 = (k0 + (l.length + 1) + 1) + 1 by omega,
      rcRest_slash hp _ s (by omega) hs.1 (by rw [← Nat.add_assoc, hs.2.1]; exact ⟨h42, h47⟩)]
    obtain ⟨k', e⟩ := ih k0 { s with j := s.j + 1 } (by simpa [Nat.add_assoc] using hs.2) (by simp only; omega)
      (by
        intro h
        simp only
        rw [show s.j + 1 + (l.length + 1) = s.j + (l.length + 1 + 1) by omega]
        refine hx ?_
        rw [List.getLast?_cons]
        simp [h])
    simp only at e
    refine ⟨k', ?_⟩
    rw [e, show s.j + 1 + (l.length + 1) = s.j + (l.length + 1 + 1) by omega]
  | str v l hv _ ih =>
    intro k0 s hs hl hx
    simp only [List.length_cons, List.length_append] at hl hx ih ⊢
    obtain ⟨h1, h2⟩ := hs
    rw [sitsAt_append] at h2
    obtain ⟨h2, h3, h4⟩ := h2
    obtain ⟨b1, b2⟩ := strBody_sits hv (i := p + s.j + 1) (by omega) h2 (by rw [Nat.add_sub_cancel, h1]; decide)
    rw [show k0 + (v.length + (l.length + 1) + 1) + 1 = (k0 + v.length + 1 + l.length + 1) + 1 by omega,
      rcRest_str hp _ s (s.j + 1 + v.length) (by omega) (by omega) h1 (by rw [← h3]; congr 1; omega)
        (by rw [show p + (s.j + 1 + v.length) - 1 = p + s.j + 1 + v.length - 1 by omega]; exact b2)
        (fun t t1 t2 t3 => b1 (p + t) (by omega) (by omega) t3)]
    obtain ⟨k', e⟩ := ih (k0 + v.length + 1) { s with j := s.j + 1 + v.length + 1 }
      (by simp only; rw [show p + (s.j + 1 + v.length + 1) = p + s.j + 1 + v.length + 1 by omega]; exact h4) (by simp only; omega)
      (by
        intro h
        simp only
        rw [show s.j + 1 + v.length + 1 + l.length = s.j + (v.length + (l.length + 1) + 1) by omega]
        refine hx ?_
        rw [List.getLast?_cons, List.getLast?_append, List.getLast?_cons]
        simp [h])
    simp only at e
    refine ⟨k' + v.length + 1, ?_⟩
    rw [e, show k0 + v.length + 1 + k' + 1 = k0 + (k' + v.length + 1) + 1 by omega,
      show s.j + 1 + v.length + 1 + l.length = s.j + (v.length + (l.length + 1) + 1) by omega]

/-- What is behind the leading blanks is code. -/
theorem code_drop {u : List Byte} : ∀ {b : List Byte}, (∀ c ∈ b, c ≠ 34#8 ∧ c ≠ 47#8) → Code (b ++ u) → Code u := by
  intro b
  induction b with
  | nil => intro _ h; exact h
  | cons c b ih =>
    intro hb h
    have hc := hb c (by simp)
    refine ih (fun x hx => hb x (by simp [hx])) ?_
    generalize hg : c :: b ++ u = w at h
    cases h with
    | nil => simp at hg
    | chr c' l _ _ hl => simp at hg; rw [hg.2]; exact hl
    | slashEnd => simp at hg; exact absurd hg.1 hc.2
    | slash d l _ _ _ => simp at hg; exact absurd hg.1 hc.2
    | str v l _ _ => simp at hg; exact absurd hg.1 hc.1

theorem rcRest_done {B : Nat → Byte} {p start len : Nat} (k : Nat) (s : RcScan) (h : len ≤ s.j) : rcRest B p start len k s = .ok s := by
  cases k with
  | zero => rfl
  | succ k => rw [rcRest, if_neg (by omega)]; rfl

theorem dropWhile_all {f : Byte → Bool} : ∀ {a b : List Byte}, (∀ c ∈ a, f c = true) → (∀ c, b.head? = some c → f c = false) → (a ++ b).dropWhile f = b := by
  intro a
  induction a with
  | nil =>
    intro b _ h
    cases b with
    | nil => rfl
    | cons c b => simp [h c rfl]
  | cons c a ih =>
    intro b h1 h2
    rw [List.cons_append, List.dropWhile_cons, if_pos (h1 c (by simp))]
    exact ih (fun x hx => h1 x (by simp [hx])) h2

/-- The length that is left is the one of the line without the blanks at its end. -/
theorem trimEnd_eq {B : Nat → Byte} {p len : Nat} {l : List Byte} (hs : SitsAt B p l) (ha : Ascii l) (h1 : len ≤ l.length)
    (h2 : ∀ t, len ≤ t → t < l.length → rcLow (B (p + t)) = true) (h3 : 0 < len → rcLow (B (p + (len - 1))) = false) : trimEnd l = l.take len := by
  have hl : l.reverse = (l.drop len).reverse ++ (l.take len).reverse := by
    rw [← List.reverse_append, List.take_append_drop]
  rw [trimEnd, hl, dropWhile_all, List.reverse_reverse]
  · intro c hc
    rw [List.mem_reverse, List.mem_iff_getElem] at hc
    obtain ⟨t, ht, hc⟩ := hc
    rw [List.getElem_drop] at hc
    rw [List.length_drop] at ht
    have := h2 (len + t) (by omega) (by omega)
    rw [sitsAt_get hs _ (by omega), hc, rcLow_ascii (ha c (by rw [← hc]; exact List.getElem_mem _)).2] at this
    exact this
  · intro c hc
    rw [List.head?_reverse, List.getLast?_eq_getElem?, List.length_take, Nat.min_eq_left h1] at hc
    by_cases hz : 0 < len
    · have := h3 hz
      rw [sitsAt_get hs _ (by omega), rcLow_ascii (ha _ (List.getElem_mem _)).2] at this
      rw [List.getElem?_take, if_pos (by omega), List.getElem?_eq_getElem (by omega)] at hc
      rw [← Option.some.inj hc]
      exact this
    · have : len = 0 := by omega
      subst this
      simp at hc

theorem takeWhile_keeps {f : Byte → Bool} : ∀ {l : List Byte}, (∀ c ∈ l, f c = true) → l.takeWhile f = l := by
  intro l
  induction l with
  | nil => intro _; rfl
  | cons c l ih =>
    intro h
    rw [List.takeWhile_cons, if_pos (h c (by simp)), ih (fun x hx => h x (by simp [hx]))]

theorem out_take {B : Nat → Byte} {p len : Nat} {l : List Byte} (hs : SitsAt B p l) (ha : Ascii l) (h1 : len ≤ l.length) :
    ((List.range len).map (fun t => B (p + t))).takeWhile (· ≠ 0#8) = l.take len := by
  have : (List.range len).map (fun t => B (p + t)) = l.take len := by
    refine List.ext_getElem (by simp [h1]) ?_
    intro t t1 t2
    simp at t1
    simp only [List.getElem_map, List.getElem_range, List.getElem_take]
    exact sitsAt_get hs _ (by omega)
  rw [this]
  have hall : ∀ c ∈ l.take len, (decide (c ≠ 0#8)) = true := fun c hc => by simpa using (ha c (List.mem_of_mem_take hc)).1
  exact takeWhile_keeps hall

/-- A line of code, or code behind the end of a comment. -/
theorem fin_code {B : Nat → Byte} {i L : Nat} (hl : IsLine B i L) (s : RcSt) (p : Nat) (l : List Byte) (st : Nat) (hp : p + l.length = i + L) (h1 : 1 ≤ i + L)
    (hi : i ≤ p) (hs : SitsAt B p l) (ha : Ascii l) (hst : st ≤ l.length) (ld1 : ∀ t, t < st → rcLow (B (p + t)) = true)
    (ld2 : st < l.length → rcLow (B (p + st)) = false) (hc : Code (trimEnd l)) (hcc : s.ccms = false) :
    ∃ e s', rcFin B s false ⟨p, st, l.length, st, 0, false⟩ = .ok (i + L, e, s') ∧ s'.quote = false ∧ s'.cms = 0 ∧ s'.ccms = false ∧ EntryOut B i L e (trimEnd l) := by
  have hb := hl.bound
  obtain ⟨len, a1, a2, a3, r, er, b1, b2, e⟩ := rcFin_eq hl s false ⟨p, st, l.length, st, 0, false⟩ hp h1 hi hst
  simp only at a1 a2 a3 er b1 b2 e
  have ht := trimEnd_eq hs ha a1 a2 a3
  have hend : B (p + len) ≠ 34#8 ∧ B (p + len) ≠ 47#8 ∧ B (p + len) ≠ 42#8 := by
    by_cases hx : len < l.length
    · have := a2 len (by omega) hx
      refine ⟨fun h => ?_, fun h => ?_, fun h => ?_⟩ <;> rw [h] at this <;> exact absurd this (by decide +kernel)
    · have : p + len = i + L := by omega
      rw [this, hl.nl]
      exact ⟨by decide, by decide, by decide⟩
  have hlow : ∀ t, t < st → B (p + t) ≠ 34#8 ∧ B (p + t) ≠ 47#8 := by
    intro t h
    have := ld1 t h
    refine ⟨fun h => ?_, fun h => ?_⟩ <;> rw [h] at this <;> exact absurd this (by decide +kernel)
  have key : r = ⟨max st len, false, 0, false, false⟩ ∧ ¬ (B (p + st) = 47#8 ∧ B (p + st + 1) = 42#8) := by
    by_cases hx : st < len
    · have hd : Code ((l.take len).drop st) := by
        refine code_drop (b := (l.take len).take st) ?_ (by rw [List.take_append_drop, ← ht]; exact hc)
        intro c hc
        rw [List.mem_iff_getElem] at hc
        obtain ⟨t, ht, hc⟩ := hc
        simp at ht
        simp only [List.getElem_take] at hc
        rw [← hc, ← sitsAt_get hs _ (by omega)]
        exact hlow t (by omega)
      have hsd : SitsAt B (p + st) ((l.take len).drop st) := sitsAt_drop (sitsAt_take hs) (by simp; omega)
      have hdl : ((l.take len).drop st).length = len - st := by simp; omega
      obtain ⟨k', ek⟩ := rcRest_code (start := st) (by omega : p + len < 1000000) ⟨hend.1, hend.2.1⟩ hd 0 ⟨st, false, 0, s.ccms, false⟩ hsd (by simp only; omega)
        (fun _ => by simp only; rw [hdl, show st + (len - st) = len by omega]; exact ⟨hend.2.2, hend.2.1⟩)
      rw [hdl] at ek
      simp only [Nat.zero_add] at ek
      rw [ek, rcRest_done _ _ (by simp only; omega)] at er
      refine ⟨?_, ?_⟩
      · have := (Res.ok.inj er).symm
        rw [this, hcc]
        simp
        omega
      · rintro ⟨x1, x2⟩
        generalize hg : (l.take len).drop st = w at hd hsd hdl
        cases hd with
        | nil => simp at hdl; omega
        | chr c l _ h47 _ => exact h47 (by rw [← hsd.1]; exact x1)
        | slashEnd =>
          simp at hdl
          rw [show p + st + 1 = p + len by omega] at x2
          exact hend.2.2 x2
        | slash d l h42 _ _ => exact h42 (by rw [← hsd.2.1]; exact x2)
        | str v l _ _ =>
          have := hsd.1
          rw [x1] at this
          exact absurd this (by decide)
    · rw [rcRest_done _ _ (by simp only; omega)] at er
      refine ⟨?_, ?_⟩
      · have := (Res.ok.inj er).symm
        rw [this, hcc]
        simp
        omega
      · rintro ⟨x1, x2⟩
        by_cases hy : st < l.length
        · have := ld2 hy
          rw [a2 st (by omega) hy] at this
          exact absurd this (by decide)
        · rw [show p + st = i + L by omega, hl.nl] at x1
          exact absurd x1 (by decide)
  obtain ⟨hr, hno⟩ := key
  have hb0 : (decide (B (p + st) = 47#8) && decide (B (p + st + 1) = 42#8)) = false := by
    by_cases x1 : B (p + st) = 47#8
    · have : ¬ B (p + st + 1) = 42#8 := fun x2 => hno ⟨x1, x2⟩
      simp [this]
    · simp [x1]
  refine ⟨_, _, e, ?_, ?_, ?_, ?_⟩
  · simp [hr]
  · simp [hr]
  · simp [hr]
  · right
    refine ⟨p, ?_, hi, ?_, ?_⟩
    · simp only [hr, hb0]; rfl
    · simp only [hr, hb0]; simp; omega
    · rw [ht]
      simp only [hr, hb0]
      simp only [Bool.false_eq_true, if_false, ne_eq, not_true_eq_false]
      exact (out_take hs ha a1).symm

/-- With nothing open, the whole line is looked at. -/
theorem rcStep_code {B : Nat → Byte} {n i L : Nat} (h : IsLine B i L) (hn : n + 1 < 100000) (hL : L < 10000) {s : RcSt}
    (hq : s.quote = false) (hm : s.cms = 0) (hc : s.ccms = false) :
    ∃ start, start ≤ L ∧ (∀ t, t < start → rcLow (B (i + t)) = true) ∧ (start < L → rcLow (B (i + start)) = false) ∧
      rcStep B n i s = rcFin B s false ⟨i, start, L, start, 0, false⟩ := by
  obtain ⟨start, a1, a2, a3, e⟩ := rcStep_eq h hn hL s
  refine ⟨start, a1, a2, a3, ?_⟩
  have ec : rcCont B i start L s = .ok (start, false, false) := by
    rw [rcCont]
    split
    · rw [if_neg (by rw [hq]; decide), Res.pure_eq, Res.ok_bind, if_neg (by rw [hc]; decide)]
      rfl
    · rw [hq]; rfl
  rw [e, ec, Res.ok_bind, rcOpen, if_neg (by simp [hm]), hm]
  rfl

/-- The leading blanks end where something else starts. -/
theorem start_eq {B : Nat → Byte} {i L start : Nat} {b w : List Byte} {c : Byte} (hb : Blank b) (hc : rcLow c = false) (ha : Ascii (b ++ c :: w))
    (hs : SitsAt B i (b ++ c :: w)) (hL : L = (b ++ c :: w).length)
    (h2 : ∀ t, t < start → rcLow (B (i + t)) = true) (h3 : start < L → rcLow (B (i + start)) = false) : start = b.length := by
  have hs' := (sitsAt_append.mp hs)
  rcases Nat.lt_trichotomy start b.length with h | h | h
  · exfalso
    have hx := h3 (by simp at hL; omega)
    rw [sitsAt_get hs'.1 _ h, rcLow_ascii (ha _ (by simp)).2] at hx
    have := hb _ (List.getElem_mem h)
    simp at hx
    omega
  · exact h
  · have := h2 _ h
    rw [hs'.2.1, hc] at this
    exact absurd this (by decide)

/-- A `//` comment. -/
theorem rc_step_line {B : Nat → Byte} {n i : Nat} {b w : List Byte} (h : IsLine B i (b ++ 47#8 :: 47#8 :: w).length) (hn : n + 1 < 100000)
    (hL : (b ++ 47#8 :: 47#8 :: w).length < 10000) {s : RcSt} (hq : s.quote = false) (hm : s.cms = 0) (hc : s.ccms = false)
    (hb : Blank b) (ha : Ascii (b ++ 47#8 :: 47#8 :: w)) (hs : SitsAt B i (b ++ 47#8 :: 47#8 :: w)) :
    ∃ e s', rcStep B n i s = .ok (i + (b ++ 47#8 :: 47#8 :: w).length, e, s') ∧ s'.quote = false ∧ s'.cms = 0 ∧
      s'.prev = decide (Continued (b ++ 47#8 :: 47#8 :: w)) ∧ s'.ccms = decide (Continued (b ++ 47#8 :: 47#8 :: w)) ∧ e.p = none := by
  obtain ⟨start, a1, a2, a3, e⟩ := rcStep_code h hn hL hq hm hc
  have hst := start_eq hb (by decide +kernel) ha hs rfl a2 a3
  have hlen : (b ++ 47#8 :: 47#8 :: w).length = b.length + 2 + w.length := by simp; omega
  have hb' := h.bound
  have hlast : B (i + (b ++ 47#8 :: 47#8 :: w).length - 1) = 92#8 ↔ Continued (b ++ 47#8 :: 47#8 :: w) := by
    rw [Continued, List.getLast?_eq_getElem?, List.getElem?_eq_getElem (by omega), show i + (b ++ 47#8 :: 47#8 :: w).length - 1
      = i + ((b ++ 47#8 :: 47#8 :: w).length - 1) by omega, sitsAt_get hs _ (by omega)]
    simp
  obtain ⟨s1, s2, s3, s4⟩ := sitsAt_append.mp hs
  generalize hlg : b ++ 47#8 :: 47#8 :: w = l at *
  obtain ⟨len, b1, b2, b3, r, er, c1, c2, ef⟩ := rcFin_eq h s false ⟨i, start, l.length, start, 0, false⟩ rfl (by omega) (Nat.le_refl _) a1
  simp only at b1 b2 b3 er c1 c2 ef
  have hl2 : start + 2 ≤ len := by
    refine Decidable.byContradiction fun hx => ?_
    have := b2 (start + 1) (by omega) (by omega)
    rw [show i + (start + 1) = i + b.length + 1 by omega, s3] at this
    exact absurd this (by decide +kernel)
  have er2 : rcRest B i start len (len - start + 1) ⟨start, false, 0, s.ccms, false⟩ = .ok ⟨start + 1, false, 0, true, true⟩ := by
    have e0 := rcScan_eq (stop := fun c => c = 34#8 || c = 47#8) (B := B) (p := i) (k := len - start) (j := start) 0 (by omega) (by omega) (fun u hu => by omega)
      (fun _ => by simp [hst, s2])
    rw [rcRest, if_pos (by simp only; omega), e0, Res.ok_bind, Nat.add_zero, rcRd_ok (by omega), Res.ok_bind, hst, s2, if_neg (by decide), if_pos rfl,
      rcRd_ok (by omega), Res.ok_bind, ← Nat.add_assoc, s3, if_neg (by decide), if_pos rfl]
    simp
  rw [er2] at er
  have hr := (Res.ok.inj er).symm
  have hcont : (decide (B (i + l.length - 1) = 92#8) && decide (0 < l.length)) = decide (Continued l) := by
    rw [show decide (0 < l.length) = true by simp only [decide_eq_true_eq]; omega, Bool.and_true]
    exact decide_eq_decide.mpr hlast
  rw [ef] at e
  refine ⟨_, _, e, ?_, ?_, ?_, ?_, ?_⟩
  · simp [hr]
  · simp [hr]
  · exact hcont
  · simp only [hcont, hr, Bool.and_true]
  · simp [hr]

/-- A line that belongs to a `//` comment. -/
theorem rc_step_more {B : Nat → Byte} {n i : Nat} {l : List Byte} (h : IsLine B i l.length) (hn : n + 1 < 100000) (hL : l.length < 10000) {s : RcSt}
    (h1 : 1 ≤ i) (hp : s.prev = true) (hq : s.quote = false) (hm : s.cms = 0) (hc : s.ccms = true) (hs : SitsAt B i l) :
    ∃ e s', rcStep B n i s = .ok (i + l.length, e, s') ∧ s'.quote = false ∧ s'.cms = 0 ∧
      s'.prev = decide (Continued l) ∧ s'.ccms = decide (Continued l) ∧ e.p = none := by
  obtain ⟨start, a1, a2, a3, e⟩ := rcStep_eq h hn hL s
  have ec : rcCont B i start l.length s = .ok (l.length, false, true) := by
    rw [rcCont, if_pos hp, if_neg (by rw [hq]; decide), Res.pure_eq, Res.ok_bind, if_pos hc]
    rfl
  rw [ec, Res.ok_bind, rcOpen, if_neg (by simp [hm]), Res.pure_eq, Res.ok_bind, hm] at e
  obtain ⟨len, b1, b2, b3, r, er, c1, c2, ef⟩ := rcFin_eq h s false ⟨i, l.length, l.length, start, 0, true⟩ rfl (by omega) (Nat.le_refl _) a1
  simp only at b1 b2 b3 er c1 c2 ef
  rw [rcRest_done _ _ (by simp only; omega)] at er
  have hr := (Res.ok.inj er).symm
  have hcont : (decide (B (i + l.length - 1) = 92#8) && decide (0 < l.length)) = decide (Continued l) := by
    by_cases hz : 0 < l.length
    · rw [show decide (0 < l.length) = true by simp only [decide_eq_true_eq]; omega, Bool.and_true]
      refine decide_eq_decide.mpr ?_
      rw [Continued, List.getLast?_eq_getElem?, List.getElem?_eq_getElem (by omega), show i + l.length - 1
        = i + (l.length - 1) by omega, sitsAt_get hs _ (by omega)]
      simp
    · have : l = [] := List.length_eq_zero_iff.mp (by omega)
      subst this
      simp [Continued]
  have e2 := e.trans ef
  refine ⟨_, _, e2, ?_, ?_, ?_, ?_, ?_⟩
  · simp [hr]
  · simp [hr]
  · exact hcont
  · simp only [hcont, hr, hc, Bool.and_true]
  · simp [hr]

/-- The start of a comment, at the start of a line or behind code. -/
theorem rc_step_open {B : Nat → Byte} {n i : Nat} {u w : List Byte} (h : IsLine B i (u ++ 47#8 :: 42#8 :: w).length) (hn : n + 1 < 100000)
    (hL : (u ++ 47#8 :: 42#8 :: w).length < 10000) {s : RcSt} (hq : s.quote = false) (hm : s.cms = 0) (hc : s.ccms = false)
    (hu : Code u) (hul : u.getLast? ≠ some 47#8) (ha : Ascii (u ++ 47#8 :: 42#8 :: w)) (hs : SitsAt B i (u ++ 47#8 :: 42#8 :: w)) (hw : NoEnd w) :
    ∃ e s', rcStep B n i s = .ok (i + (u ++ 47#8 :: 42#8 :: w).length, e, s') ∧ s'.quote = false ∧ s'.cms ≠ 0 ∧ s'.ccms = false ∧
      (Blank u → e.p = none) ∧ (¬ Blank u → EntryOut B i (u ++ 47#8 :: 42#8 :: w).length e u) := by
  obtain ⟨start, a1, a2, a3, e⟩ := rcStep_code h hn hL hq hm hc
  have hlen : (u ++ 47#8 :: 42#8 :: w).length = u.length + 2 + w.length := by simp; omega
  have hb' := h.bound
  obtain ⟨s1, s2, s3, s4⟩ := sitsAt_append.mp hs
  have hsu : start ≤ u.length := by
    refine Decidable.byContradiction fun hx => ?_
    have := a2 u.length (by omega)
    rw [s2] at this
    exact absurd this (by decide +kernel)
  have hbl : Blank u → start = u.length := fun hb => start_eq hb (by decide +kernel) ha hs rfl a2 a3
  have hnb : ¬ Blank u → start < u.length := by
    intro hb
    refine Decidable.byContradiction fun hx => hb ?_
    intro c hc
    rw [List.mem_iff_getElem] at hc
    obtain ⟨t, ht, hc⟩ := hc
    have := a2 t (by omega)
    rw [sitsAt_get s1 _ ht, rcLow_ascii (ha _ (by simp)).2, hc] at this
    simpa using this
  have hau : Ascii u := fun c hc => ha c (by simp [hc])
  generalize hlg : u ++ 47#8 :: 42#8 :: w = l at *
  obtain ⟨len, b1, b2, b3, r, er, c1, c2, ef⟩ := rcFin_eq h s false ⟨i, start, l.length, start, 0, false⟩ rfl (by omega) (Nat.le_refl _) a1
  simp only at b1 b2 b3 er c1 c2 ef
  have hl2 : u.length + 2 ≤ len := by
    refine Decidable.byContradiction fun hx => ?_
    have := b2 (u.length + 1) (by omega) (by omega)
    rw [← Nat.add_assoc, s3] at this
    exact absurd this (by decide +kernel)
  have hend : B (i + len) ≠ 34#8 ∧ B (i + len) ≠ 47#8 := by
    by_cases hx : len < l.length
    · have := b2 len (by omega) hx
      refine ⟨fun h => ?_, fun h => ?_⟩ <;> rw [h] at this <;> exact absurd this (by decide +kernel)
    · rw [show i + len = i + l.length by omega, h.nl]
      exact ⟨by decide, by decide⟩
  have hlow : ∀ t, t < start → B (i + t) ≠ 34#8 ∧ B (i + t) ≠ 47#8 := by
    intro t h
    have := a2 t h
    refine ⟨fun h => ?_, fun h => ?_⟩ <;> rw [h] at this <;> exact absurd this (by decide +kernel)
  have hd : Code (u.drop start) := by
    refine code_drop (b := u.take start) ?_ (by rw [List.take_append_drop]; exact hu)
    intro c hc
    rw [List.mem_iff_getElem] at hc
    obtain ⟨t, ht, hc⟩ := hc
    simp at ht
    simp only [List.getElem_take] at hc
    rw [← hc, ← sitsAt_get s1 _ (by omega)]
    exact hlow t (by omega)
  have hsd : SitsAt B (i + start) (u.drop start) := sitsAt_drop s1 hsu
  have hdl : (u.drop start).length = u.length - start := by simp
  have hlast : (u.drop start).getLast? ≠ some 47#8 := by
    intro hx
    rw [List.getLast?_drop] at hx
    split at hx
    · cases hx
    · exact hul hx
  obtain ⟨k', ek⟩ := rcRest_code (start := start) (by omega : i + len < 1000000) hend hd (len - u.length) ⟨start, false, 0, s.ccms, false⟩ hsd
    (by simp only; omega) (fun hx => absurd hx hlast)
  rw [hdl] at ek
  simp only at ek
  rw [show len - u.length + (u.length - start) + 1 = len - start + 1 by omega, show start + (u.length - start) = u.length by omega] at ek
  have ecm : rcCms B i (u.length + 2) len = .ok (false, len) := by
    refine rcCms_find (by omega) hl2 ?_
    intro t t1 t2 t3 t4
    have x1 := sitsAt_get s4 (t - (u.length + 2)) (by omega)
    have x2 := sitsAt_get s4 (t + 1 - (u.length + 2)) (by omega)
    rw [show i + u.length + 1 + 1 + (t - (u.length + 2)) = i + t by omega, t3] at x1
    rw [show i + u.length + 1 + 1 + (t + 1 - (u.length + 2)) = i + t + 1 by omega, t4] at x2
    refine hw (t - (u.length + 2)) ?_ ?_
    · rw [List.getElem?_eq_getElem (by omega), ← x1]
    · rw [List.getElem?_eq_getElem (by omega)]
      rw [x2]
      congr 2
      omega
  have er2 : rcRest B i start len (len - start + 1) ⟨start, false, 0, s.ccms, false⟩ = .ok ⟨len, false, u.length + 1, s.ccms, false⟩ := by
    have e0 := rcScan_eq (stop := fun c => c = 34#8 || c = 47#8) (B := B) (p := i) (k := len - u.length) (j := u.length) 0 (by omega) (by omega)
      (fun u hu => by omega) (fun _ => by simp [s2])
    rw [ek, rcRest, if_pos (by simp only; omega), e0, Res.ok_bind, Nat.add_zero, rcRd_ok (by omega), Res.ok_bind, s2, if_neg (by decide), if_pos rfl,
      rcRd_ok (by omega), Res.ok_bind, ← Nat.add_assoc, s3, if_pos rfl, ecm, Res.ok_bind]
    rfl
  rw [er2] at er
  have hr := (Res.ok.inj er).symm
  rw [ef] at e
  refine ⟨_, _, e, ?_, ?_, ?_, ?_, ?_⟩
  · simp [hr]
  · simp [hr]
  · simp [hr, hc]
  · intro hb
    simp [hr, hbl hb, s2, s3]
  · intro hb
    have hlt := hnb hb
    have hno : (decide (B (i + start) = 47#8) && decide (B (i + start + 1) = 42#8)) = false := by
      by_cases x1 : B (i + start) = 47#8
      · have : ¬ B (i + start + 1) = 42#8 := by
          intro x2
          generalize hg : u.drop start = v at hd hsd hdl hlast
          cases hd with
          | nil => simp at hdl; omega
          | chr c l _ h47 _ => exact h47 (by rw [← hsd.1]; exact x1)
          | slashEnd => exact hlast rfl
          | slash d l h42 _ _ => exact h42 (by rw [← hsd.2.1]; exact x2)
          | str v l _ _ =>
            have := hsd.1
            rw [x1] at this
            exact absurd this (by decide)
        simp [this]
      · simp [x1]
    right
    refine ⟨i, ?_, Nat.le_refl _, ?_, ?_⟩
    · simp only [hr, hno]; rfl
    · simp only [hr, hno]; simp; omega
    · simp only [hr, hno]
      simp only [Bool.false_eq_true, if_false, ne_eq, Nat.succ_ne_zero, not_false_eq_true, if_true, Nat.add_sub_cancel]
      rw [out_take s1 hau (Nat.le_refl _), List.take_length]

/-- A comment that ends in the same line: behind code it stays, with code behind it the code is lost. -/
theorem rc_step_mid {B : Nat → Byte} {n i : Nat} {u a t : List Byte} (h : IsLine B i (u ++ 47#8 :: 42#8 :: (a ++ 42#8 :: 47#8 :: t)).length)
    (hn : n + 1 < 100000) (hL : (u ++ 47#8 :: 42#8 :: (a ++ 42#8 :: 47#8 :: t)).length < 10000) {s : RcSt} (hq : s.quote = false) (hm : s.cms = 0)
    (hc : s.ccms = false) (hu : Code u) (hul : u.getLast? ≠ some 47#8) (hn2 : NoEnd (a ++ [42#8])) (ht : Code (trimEnd t))
    (ha : Ascii (u ++ 47#8 :: 42#8 :: (a ++ 42#8 :: 47#8 :: t))) (hs : SitsAt B i (u ++ 47#8 :: 42#8 :: (a ++ 42#8 :: 47#8 :: t))) :
    ∃ e s', rcStep B n i s = .ok (i + (u ++ 47#8 :: 42#8 :: (a ++ 42#8 :: 47#8 :: t)).length, e, s') ∧ s'.quote = false ∧ s'.cms = 0 ∧ s'.ccms = false ∧
      (Blank u → e.p = none) ∧ (¬ Blank u → EntryOut B i (u ++ 47#8 :: 42#8 :: (a ++ 42#8 :: 47#8 :: t)).length e
        (trimEnd (u ++ 47#8 :: 42#8 :: (a ++ 42#8 :: 47#8 :: t)))) := by
  obtain ⟨start, a1, a2, a3, e⟩ := rcStep_code h hn hL hq hm hc
  have hlen : (u ++ 47#8 :: 42#8 :: (a ++ 42#8 :: 47#8 :: t)).length = u.length + 2 + a.length + 2 + t.length := by simp; omega
  have hb' := h.bound
  obtain ⟨s1, s2, s3, s4⟩ := sitsAt_append.mp hs
  have s42 : SitsAt B (i + u.length + 1 + 1) (a ++ [42#8]) := by
    rw [show a ++ 42#8 :: 47#8 :: t = (a ++ [42#8]) ++ 47#8 :: t by simp] at s4
    exact (sitsAt_append.mp s4).1
  obtain ⟨s5, s6, s7, s8⟩ := sitsAt_append.mp s4
  have hat : Ascii t := fun c hc => ha c (by simp [hc])
  have hsu : start ≤ u.length := by
    refine Decidable.byContradiction fun hx => ?_
    have := a2 u.length (by omega)
    rw [s2] at this
    exact absurd this (by decide +kernel)
  have hbl : Blank u → start = u.length := fun hb => start_eq hb (by decide +kernel) ha hs rfl a2 a3
  have hnb : ¬ Blank u → start < u.length := by
    intro hb
    refine Decidable.byContradiction fun hx => hb ?_
    intro c hc
    rw [List.mem_iff_getElem] at hc
    obtain ⟨t, ht, hc⟩ := hc
    have := a2 t (by omega)
    rw [sitsAt_get s1 _ ht, rcLow_ascii (ha _ (by simp)).2, hc] at this
    simpa using this
  generalize hlg : u ++ 47#8 :: 42#8 :: (a ++ 42#8 :: 47#8 :: t) = l at *
  obtain ⟨len, b1, b2, b3, r, er, c1, c2, ef⟩ := rcFin_eq h s false ⟨i, start, l.length, start, 0, false⟩ rfl (by omega) (Nat.le_refl _) a1
  simp only at b1 b2 b3 er c1 c2 ef
  have hl2 : u.length + 2 + a.length + 2 ≤ len := by
    refine Decidable.byContradiction fun hx => ?_
    have := b2 (u.length + 2 + a.length + 1) (by omega) (by omega)
    rw [show i + (u.length + 2 + a.length + 1) = i + u.length + 1 + 1 + a.length + 1 by omega, s7] at this
    exact absurd this (by decide +kernel)
  have htt : trimEnd t = t.take (len - (u.length + 2 + a.length + 2)) := by
    refine trimEnd_eq s8 hat (by omega) ?_ ?_
    · intro q q1 q2
      have := b2 (u.length + 2 + a.length + 2 + q) (by omega) (by omega)
      rw [← this]
      congr 2
      omega
    · intro q
      have := b3 (by omega)
      rw [← this]
      congr 2
      omega
  have hend : B (i + len) ≠ 34#8 ∧ B (i + len) ≠ 47#8 ∧ B (i + len) ≠ 42#8 := by
    by_cases hx : len < l.length
    · have := b2 len (by omega) hx
      refine ⟨fun h => ?_, fun h => ?_, fun h => ?_⟩ <;> rw [h] at this <;> exact absurd this (by decide +kernel)
    · rw [show i + len = i + l.length by omega, h.nl]
      exact ⟨by decide, by decide, by decide⟩
  have hlow : ∀ t, t < start → B (i + t) ≠ 34#8 ∧ B (i + t) ≠ 47#8 := by
    intro t h
    have := a2 t h
    refine ⟨fun h => ?_, fun h => ?_⟩ <;> rw [h] at this <;> exact absurd this (by decide +kernel)
  have hd : Code (u.drop start) := by
    refine code_drop (b := u.take start) ?_ (by rw [List.take_append_drop]; exact hu)
    intro c hc
    rw [List.mem_iff_getElem] at hc
    obtain ⟨t, ht, hc⟩ := hc
    simp at ht
    simp only [List.getElem_take] at hc
    rw [← hc, ← sitsAt_get s1 _ (by omega)]
    exact hlow t (by omega)
  have hsd : SitsAt B (i + start) (u.drop start) := sitsAt_drop s1 hsu
  have hdl : (u.drop start).length = u.length - start := by simp
  have hlast : (u.drop start).getLast? ≠ some 47#8 := by
    intro hx
    rw [List.getLast?_drop] at hx
    split at hx
    · cases hx
    · exact hul hx
  obtain ⟨k', ek⟩ := rcRest_code (start := start) (by omega : i + len < 1000000) ⟨hend.1, hend.2.1⟩ hd (len - u.length) ⟨start, false, 0, s.ccms, false⟩ hsd
    (by simp only; omega) (fun hx => absurd hx hlast)
  rw [hdl] at ek
  simp only at ek
  rw [show len - u.length + (u.length - start) + 1 = len - start + 1 by omega, show start + (u.length - start) = u.length by omega] at ek
  have ecm : rcCms B i (u.length + 2) len = .ok (true, u.length + 2 + a.length + 2) := by
    refine rcCms_hit (by omega) (u.length + 2 + a.length) (by omega) (by omega) ?_ ?_ ?_
    · rw [← s6]; congr 1; omega
    · rw [← s7]; congr 1; omega
    · intro q t1 t2 t3 t4
      have hal : (a ++ [42#8]).length = a.length + 1 := by simp
      have x1 := sitsAt_get s42 (q - (u.length + 2)) (by omega)
      have x2 := sitsAt_get s42 (q + 1 - (u.length + 2)) (by omega)
      rw [show i + u.length + 1 + 1 + (q - (u.length + 2)) = i + q by omega, t3] at x1
      rw [show i + u.length + 1 + 1 + (q + 1 - (u.length + 2)) = i + q + 1 by omega, t4] at x2
      refine hn2 (q - (u.length + 2)) ?_ ?_
      · rw [List.getElem?_eq_getElem (by omega), ← x1]
      · rw [List.getElem?_eq_getElem (by omega)]
        rw [x2]
        congr 2
        omega
  have er2 : rcRest B i start len (len - start + 1) ⟨start, false, 0, s.ccms, false⟩ = .ok ⟨len, false, 0, s.ccms, false⟩ := by
    have e0 := rcScan_eq (stop := fun c => c = 34#8 || c = 47#8) (B := B) (p := i) (k := len - u.length) (j := u.length) 0 (by omega) (by omega)
      (fun u hu => by omega) (fun _ => by simp [s2])
    have htl : (t.take (len - (u.length + 2 + a.length + 2))).length = len - (u.length + 2 + a.length + 2) := by simp; omega
    obtain ⟨k2, ek2⟩ := rcRest_code (start := start) (by omega : i + len < 1000000) ⟨hend.1, hend.2.1⟩ (htt ▸ ht)
      (len - u.length + k' - (len - (u.length + 2 + a.length + 2)) - 1)
      ⟨u.length + 2 + a.length + 2, false, 0, s.ccms, false⟩
      (sitsAt_take (by simp only; rw [show i + (u.length + 2 + a.length + 2) = i + u.length + 1 + 1 + a.length + 1 + 1 by omega]; exact s8))
      (by simp only; omega)
      (fun _ => by
        simp only
        rw [htl, show u.length + 2 + a.length + 2 + (len - (u.length + 2 + a.length + 2)) = len by omega]
        exact ⟨hend.2.2, hend.2.1⟩)
    rw [htl] at ek2
    simp only at ek2
    rw [show len - u.length + k' - (len - (u.length + 2 + a.length + 2)) - 1 + (len - (u.length + 2 + a.length + 2)) + 1 = len - u.length + k' by omega,
      show u.length + 2 + a.length + 2 + (len - (u.length + 2 + a.length + 2)) = len by omega] at ek2
    rw [ek, rcRest, if_pos (by simp only; omega), e0, Res.ok_bind, Nat.add_zero, rcRd_ok (by omega), Res.ok_bind, s2, if_neg (by decide), if_pos rfl,
      rcRd_ok (by omega), Res.ok_bind, ← Nat.add_assoc, s3, if_pos rfl, ecm, Res.ok_bind, if_pos rfl]
    simp only
    rw [ek2, rcRest_done _ _ (by simp)]
  rw [er2] at er
  have hr := (Res.ok.inj er).symm
  rw [ef] at e
  refine ⟨_, _, e, ?_, ?_, ?_, ?_, ?_⟩
  · simp [hr]
  · simp [hr]
  · simp [hr, hc]
  · intro hb
    simp [hr, hbl hb, s2, s3]
  · intro hb
    have hlt := hnb hb
    have hno : (decide (B (i + start) = 47#8) && decide (B (i + start + 1) = 42#8)) = false := by
      by_cases x1 : B (i + start) = 47#8
      · have : ¬ B (i + start + 1) = 42#8 := by
          intro x2
          generalize hg : u.drop start = v at hd hsd hdl hlast
          cases hd with
          | nil => simp at hdl; omega
          | chr c l _ h47 _ => exact h47 (by rw [← hsd.1]; exact x1)
          | slashEnd => exact hlast rfl
          | slash d l h42 _ _ => exact h42 (by rw [← hsd.2.1]; exact x2)
          | str v l _ _ =>
            have := hsd.1
            rw [x1] at this
            exact absurd this (by decide)
        simp [this]
      · simp [x1]
    right
    refine ⟨i, ?_, Nat.le_refl _, ?_, ?_⟩
    · simp only [hr, hno]; rfl
    · simp only [hr, hno]; simp; omega
    · simp only [hr, hno]
      simp only [Bool.false_eq_true, if_false, ne_eq, not_true_eq_false]
      rw [out_take hs ha b1, trimEnd_eq hs ha b1 b2 b3]

/-- A `//` comment behind code stays. -/
theorem rc_step_eol {B : Nat → Byte} {n i : Nat} {u w : List Byte} (h : IsLine B i (u ++ 47#8 :: 47#8 :: w).length) (hn : n + 1 < 100000)
    (hL : (u ++ 47#8 :: 47#8 :: w).length < 10000) {s : RcSt} (hq : s.quote = false) (hm : s.cms = 0) (hc : s.ccms = false)
    (hu : Code u) (hub : ¬ Blank u) (hul : u.getLast? ≠ some 47#8) (ha : Ascii (u ++ 47#8 :: 47#8 :: w)) (hs : SitsAt B i (u ++ 47#8 :: 47#8 :: w)) :
    ∃ e s', rcStep B n i s = .ok (i + (u ++ 47#8 :: 47#8 :: w).length, e, s') ∧ s'.quote = false ∧ s'.cms = 0 ∧
      s'.prev = decide (Continued (u ++ 47#8 :: 47#8 :: w)) ∧ s'.ccms = decide (Continued (u ++ 47#8 :: 47#8 :: w)) ∧
      EntryOut B i (u ++ 47#8 :: 47#8 :: w).length e (trimEnd (u ++ 47#8 :: 47#8 :: w)) := by
  obtain ⟨start, a1, a2, a3, e⟩ := rcStep_code h hn hL hq hm hc
  have hlen : (u ++ 47#8 :: 47#8 :: w).length = u.length + 2 + w.length := by simp; omega
  have hb' := h.bound
  obtain ⟨s1, s2, s3, s4⟩ := sitsAt_append.mp hs
  have hsu : start ≤ u.length := by
    refine Decidable.byContradiction fun hx => ?_
    have := a2 u.length (by omega)
    rw [s2] at this
    exact absurd this (by decide +kernel)
  have hlt : start < u.length := by
    refine Decidable.byContradiction fun hx => hub ?_
    intro c hc
    rw [List.mem_iff_getElem] at hc
    obtain ⟨t, ht, hc⟩ := hc
    have := a2 t (by omega)
    rw [sitsAt_get s1 _ ht, rcLow_ascii (ha _ (by simp)).2, hc] at this
    simpa using this
  have hcl : B (i + (u ++ 47#8 :: 47#8 :: w).length - 1) = 92#8 ↔ Continued (u ++ 47#8 :: 47#8 :: w) := by
    rw [Continued, List.getLast?_eq_getElem?, List.getElem?_eq_getElem (by omega), show i + (u ++ 47#8 :: 47#8 :: w).length - 1
      = i + ((u ++ 47#8 :: 47#8 :: w).length - 1) by omega, sitsAt_get hs _ (by omega)]
    simp
  generalize hlg : u ++ 47#8 :: 47#8 :: w = l at *
  obtain ⟨len, b1, b2, b3, r, er, c1, c2, ef⟩ := rcFin_eq h s false ⟨i, start, l.length, start, 0, false⟩ rfl (by omega) (Nat.le_refl _) a1
  simp only at b1 b2 b3 er c1 c2 ef
  have hl2 : u.length + 2 ≤ len := by
    refine Decidable.byContradiction fun hx => ?_
    have := b2 (u.length + 1) (by omega) (by omega)
    rw [← Nat.add_assoc, s3] at this
    exact absurd this (by decide +kernel)
  have hend : B (i + len) ≠ 34#8 ∧ B (i + len) ≠ 47#8 := by
    by_cases hx : len < l.length
    · have := b2 len (by omega) hx
      refine ⟨fun h => ?_, fun h => ?_⟩ <;> rw [h] at this <;> exact absurd this (by decide +kernel)
    · rw [show i + len = i + l.length by omega, h.nl]
      exact ⟨by decide, by decide⟩
  have hlow : ∀ t, t < start → B (i + t) ≠ 34#8 ∧ B (i + t) ≠ 47#8 := by
    intro t h
    have := a2 t h
    refine ⟨fun h => ?_, fun h => ?_⟩ <;> rw [h] at this <;> exact absurd this (by decide +kernel)
  have hd : Code (u.drop start) := by
    refine code_drop (b := u.take start) ?_ (by rw [List.take_append_drop]; exact hu)
    intro c hc
    rw [List.mem_iff_getElem] at hc
    obtain ⟨t, ht, hc⟩ := hc
    simp at ht
    simp only [List.getElem_take] at hc
    rw [← hc, ← sitsAt_get s1 _ (by omega)]
    exact hlow t (by omega)
  have hsd : SitsAt B (i + start) (u.drop start) := sitsAt_drop s1 hsu
  have hdl : (u.drop start).length = u.length - start := by simp
  have hlast : (u.drop start).getLast? ≠ some 47#8 := by
    intro hx
    rw [List.getLast?_drop] at hx
    split at hx
    · cases hx
    · exact hul hx
  obtain ⟨k', ek⟩ := rcRest_code (start := start) (by omega : i + len < 1000000) hend hd (len - u.length) ⟨start, false, 0, s.ccms, false⟩ hsd
    (by simp only; omega) (fun hx => absurd hx hlast)
  rw [hdl] at ek
  simp only at ek
  rw [show len - u.length + (u.length - start) + 1 = len - start + 1 by omega, show start + (u.length - start) = u.length by omega] at ek
  have er2 : rcRest B i start len (len - start + 1) ⟨start, false, 0, s.ccms, false⟩ = .ok ⟨u.length + 1, false, 0, true, false⟩ := by
    have e0 := rcScan_eq (stop := fun c => c = 34#8 || c = 47#8) (B := B) (p := i) (k := len - u.length) (j := u.length) 0 (by omega) (by omega)
      (fun u hu => by omega) (fun _ => by simp [s2])
    rw [ek, rcRest, if_pos (by simp only; omega), e0, Res.ok_bind, Nat.add_zero, rcRd_ok (by omega), Res.ok_bind, s2, if_neg (by decide), if_pos rfl,
      rcRd_ok (by omega), Res.ok_bind, ← Nat.add_assoc, s3, if_neg (by decide), if_pos rfl]
    simp
    omega
  rw [er2] at er
  have hr := (Res.ok.inj er).symm
  have hcont : (decide (B (i + l.length - 1) = 92#8) && decide (0 < l.length)) = decide (Continued l) := by
    rw [show decide (0 < l.length) = true by simp only [decide_eq_true_eq]; omega, Bool.and_true]
    exact decide_eq_decide.mpr hcl
  have hno : (decide (B (i + start) = 47#8) && decide (B (i + start + 1) = 42#8)) = false := by
    by_cases x1 : B (i + start) = 47#8
    · have : ¬ B (i + start + 1) = 42#8 := by
        intro x2
        generalize hg : u.drop start = v at hd hsd hdl hlast
        cases hd with
        | nil => simp at hdl; omega
        | chr c l _ h47 _ => exact h47 (by rw [← hsd.1]; exact x1)
        | slashEnd => exact hlast rfl
        | slash d l h42 _ _ => exact h42 (by rw [← hsd.2.1]; exact x2)
        | str v l _ _ =>
          have := hsd.1
          rw [x1] at this
          exact absurd this (by decide)
      simp [this]
    · simp [x1]
  rw [ef] at e
  refine ⟨_, _, e, ?_, ?_, ?_, ?_, ?_⟩
  · simp [hr]
  · simp [hr]
  · exact hcont
  · simp only [hcont, hr, Bool.and_true]
  · right
    refine ⟨i, ?_, Nat.le_refl _, ?_, ?_⟩
    · simp only [hr, hno]; rfl
    · simp only [hr, hno]; simp; omega
    · simp only [hr, hno]
      simp only [Bool.false_eq_true, if_false, ne_eq, not_true_eq_false]
      rw [out_take hs ha b1, trimEnd_eq hs ha b1 b2 b3]

/-- A line of bytes that are no ASCII. -/
theorem rc_step_high {B : Nat → Byte} {n i : Nat} {l : List Byte} (h : IsLine B i l.length) (hn : n + 1 < 100000) (hL : l.length < 10000) {s : RcSt}
    (h1 : 1 ≤ i + l.length) (hq : s.quote = false) (hm : s.cms = 0) (hc : s.ccms = false) (hs : SitsAt B i l) (hh : ∀ c ∈ l, 128 ≤ c.toNat) :
    ∃ e s', rcStep B n i s = .ok (i + l.length, e, s') ∧ EntryOut B i l.length e [] := by
  obtain ⟨start, a1, a2, a3, e⟩ := rcStep_code h hn hL hq hm hc
  obtain ⟨len, b1, b2, b3, r, er, c1, c2, ef⟩ := rcFin_eq h s false ⟨i, start, l.length, start, 0, false⟩ rfl h1 (Nat.le_refl _) a1
  simp only at b1 b2 b3 er c1 c2 ef
  have hl0 : len = 0 := by
    refine Decidable.byContradiction fun hx => ?_
    have := b3 (by omega)
    rw [sitsAt_get hs _ (by omega)] at this
    have hx := hh _ (List.getElem_mem (by omega : len - 1 < l.length))
    rw [rcLow] at this
    have hi : (l[len - 1]).toInt ≤ 32 := by
      rw [BitVec.toInt_eq_toNat_cond, if_neg (by omega)]
      have := (l[len - 1]).isLt
      omega
    simp [hi] at this
  subst hl0
  rw [rcRest_done _ _ (by simp)] at er
  have hr := (Res.ok.inj er).symm
  refine ⟨_, _, e.trans ef, ?_⟩
  by_cases hnull : (r.null || ((decide (B (i + start) = 47#8) && decide (B (i + start + 1) = 42#8)) && (decide (r.cms ≠ 0) || decide (r.j = 0)))) = true
  · left
    simp only [hnull, if_true]
    exact ⟨trivial, trivial⟩
  · right
    refine ⟨i, by simp only [hnull]; rfl, Nat.le_refl _, ?_, ?_⟩
    · simp [hr]
    · simp [hr]

theorem code_blank {b : List Byte} (h : Blank b) : Code b := by
  induction b with
  | nil => exact .nil
  | cons c b ih =>
    have hc := h c (by simp)
    refine .chr c b ?_ ?_ (ih fun x hx => h x (by simp [hx])) <;> intro hx <;> subst hx <;> exact absurd hc (by decide)

theorem blank_last {b : List Byte} (h : Blank b) : b.getLast? ≠ some 47#8 := by
  intro hx
  have := h _ (List.mem_of_getLast? hx)
  exact absurd this (by decide)

theorem trimEnd_blank {t : List Byte} (h : Blank t) : trimEnd t = [] := by
  have := dropWhile_all (f := fun c => decide (c.toNat ≤ 32)) (a := t.reverse) (b := []) (fun c hc => by simpa using h c (List.mem_reverse.mp hc)) (fun c hc => by simp at hc)
  rw [List.append_nil] at this
  rw [trimEnd, this]
  rfl

/-- With a comment open, its end is looked for. -/
theorem rcStep_block {B : Nat → Byte} {n i L : Nat} (h : IsLine B i L) (hn : n + 1 < 100000) (hL : L < 10000) {s : RcSt}
    (hq : s.quote = false) (hc : s.ccms = false) :
    ∃ start, start ≤ L ∧ (∀ t, t < start → rcLow (B (i + t)) = true) ∧ (start < L → rcLow (B (i + start)) = false) ∧
      rcStep B n i s = (rcOpen B i start L start s.cms false >>= fun h => rcFin B s false h) := by
  obtain ⟨start, a1, a2, a3, e⟩ := rcStep_eq h hn hL s
  refine ⟨start, a1, a2, a3, ?_⟩
  have ec : rcCont B i start L s = .ok (start, false, false) := by
    rw [rcCont]
    split
    · rw [if_neg (by rw [hq]; decide), Res.pure_eq, Res.ok_bind, if_neg (by rw [hc]; decide)]
      rfl
    · rw [hq]; rfl
  rw [e, ec, Res.ok_bind]

/-- A line inside of a comment. -/
theorem rc_step_inside {B : Nat → Byte} {n i : Nat} {l : List Byte} (h : IsLine B i l.length) (hn : n + 1 < 100000) (hL : l.length < 10000) {s : RcSt}
    (h1 : 1 ≤ i) (hq : s.quote = false) (hm : s.cms ≠ 0) (hc : s.ccms = false) (hs : SitsAt B i l) (hne : NoEnd l) :
    ∃ e s', rcStep B n i s = .ok (i + l.length, e, s') ∧ s'.quote = false ∧ s'.cms ≠ 0 ∧ s'.ccms = false ∧ e.p = none := by
  obtain ⟨start, a1, a2, a3, e⟩ := rcStep_block h hn hL hq hc
  have hb' := h.bound
  have ecm : rcCms B i start l.length = .ok (false, l.length) := by
    refine rcCms_find (by omega) a1 ?_
    intro t t1 t2 t3 t4
    rw [sitsAt_get hs _ (by omega)] at t3
    rw [Nat.add_assoc, sitsAt_get hs _ (by omega)] at t4
    refine hne t ?_ ?_
    · rw [List.getElem?_eq_getElem (by omega), t3]
    · rw [List.getElem?_eq_getElem (by omega), t4]
  rw [rcOpen, if_pos hm, ecm, Res.ok_bind, if_neg (by simp), Res.pure_eq, Res.ok_bind] at e
  simp only at e
  obtain ⟨len, b1, b2, b3, r, er, c1, c2, ef⟩ := rcFin_eq h s false ⟨i, l.length, l.length, start, s.cms, true⟩ rfl (by omega) (Nat.le_refl _) a1
  simp only at b1 b2 b3 er c1 c2 ef
  rw [rcRest_done _ _ (by simp only; omega)] at er
  have hr := (Res.ok.inj er).symm
  have e2 := e.trans ef
  refine ⟨_, _, e2, ?_, ?_, ?_, ?_⟩
  · simp [hr]
  · simp [hr, hm]
  · simp [hr, hc]
  · simp [hr]

/-- The end of a comment, and code behind it. -/
theorem rc_step_close {B : Nat → Byte} {n i : Nat} {a t : List Byte} (h : IsLine B i (a ++ 42#8 :: 47#8 :: t).length) (hn : n + 1 < 100000)
    (hL : (a ++ 42#8 :: 47#8 :: t).length < 10000) {s : RcSt} (hq : s.quote = false) (hm : s.cms ≠ 0) (hc : s.ccms = false)
    (hs : SitsAt B i (a ++ 42#8 :: 47#8 :: t)) (ha : Ascii (a ++ 42#8 :: 47#8 :: t)) (hn2 : NoEnd (a ++ [42#8])) (hcode : Code (trimEnd t)) :
    ∃ e s', rcStep B n i s = .ok (i + (a ++ 42#8 :: 47#8 :: t).length, e, s') ∧ s'.quote = false ∧ s'.cms = 0 ∧ s'.ccms = false ∧
      EntryOut B i (a ++ 42#8 :: 47#8 :: t).length e (trimEnd t) := by
  obtain ⟨start, a1, a2, a3, e⟩ := rcStep_block h hn hL hq hc
  have hlen : (a ++ 42#8 :: 47#8 :: t).length = a.length + 2 + t.length := by simp; omega
  have hb' := h.bound
  have s42 : SitsAt B i (a ++ [42#8]) := by
    rw [show a ++ 42#8 :: 47#8 :: t = (a ++ [42#8]) ++ 47#8 :: t by simp] at hs
    exact (sitsAt_append.mp hs).1
  obtain ⟨s5, s6, s7, s8⟩ := sitsAt_append.mp hs
  have hat : Ascii t := fun c hc => ha c (by simp [hc])
  generalize hlg : a ++ 42#8 :: 47#8 :: t = l at *
  have hst : start ≤ a.length := by
    refine Decidable.byContradiction fun hx => ?_
    have := a2 a.length (by omega)
    rw [s6] at this
    exact absurd this (by decide +kernel)
  have ecm : rcCms B i start l.length = .ok (true, a.length + 2) := by
    refine rcCms_hit (by omega) a.length (by omega) (by omega) s6 s7 ?_
    intro q t1 t2 t3 t4
    have hal : (a ++ [42#8]).length = a.length + 1 := by simp
    rw [sitsAt_get s42 _ (by omega)] at t3
    rw [Nat.add_assoc, sitsAt_get s42 _ (by omega)] at t4
    refine hn2 q ?_ ?_
    · rw [List.getElem?_eq_getElem (by omega), t3]
    · rw [List.getElem?_eq_getElem (by omega), t4]
  obtain ⟨b, eb, c1, c2, c3, c4⟩ := rcScan_spec (fun c => !rcLow c) B (i + (a.length + 2)) (l.length - (a.length + 2)) 0 (by omega)
  rw [rcOpen, if_pos hm, ecm, Res.ok_bind, if_pos rfl, eb, Res.ok_bind, Res.pure_eq, Res.ok_bind] at e
  simp only at e
  rw [show l.length - (a.length + 2) = t.length by omega] at *
  obtain ⟨en, s', ef, d1, d2, d3, d4⟩ := fin_code h s (i + (a.length + 2)) t b (by omega) (by omega) (by omega) (by
      rw [show i + (a.length + 2) = i + a.length + 1 + 1 by omega]; exact s8) hat (by omega)
    (fun q hq => by simpa using c3 q (by omega) hq) (fun hq => by simpa using c4 (by omega)) hcode hc
  exact ⟨en, s', e.trans ef, d1, d2, d3, d4⟩

/-- A line without any slash, whatever was open before except comments. -/
theorem rc_step_noslash {B : Nat → Byte} {n i : Nat} {l : List Byte} (h : IsLine B i l.length) (hn : n + 1 < 100000) (hL : l.length < 10000) {s : RcSt}
    (h1 : 1 ≤ i + l.length) (hp : s.prev = true → 1 ≤ i) (hm : s.cms = 0) (hc : s.ccms = false) (hs : SitsAt B i l) (ha : Ascii l) (hno : 47#8 ∉ l) :
    ∃ e s', rcStep B n i s = .ok (i + l.length, e, s') ∧ s'.cms = 0 ∧ s'.ccms = false ∧ EntryOut B i l.length e (trimEnd l) := by
  have hb' := h.bound
  obtain ⟨start, a1, a2, a3, e⟩ := rcStep_eq h hn hL s
  have ec : ∃ j q, rcCont B i start l.length s = .ok (j, q, false) := by
    rw [rcCont]
    by_cases hpv : s.prev = true
    · rw [if_pos hpv]
      by_cases hq : s.quote = true
      · rw [if_pos hq]
        obtain ⟨r, e, b1, b2, b3⟩ := rcQuote_spec B i l.length (by omega) (l.length - start + 1) start a1 (by have := hp hpv; omega)
        rw [e, Res.ok_bind, Res.pure_eq, Res.ok_bind, if_neg (by simp [hc])]
        exact ⟨_, _, rfl⟩
      · rw [if_neg hq, Res.pure_eq, Res.ok_bind, if_neg (by simp [hc])]
        exact ⟨_, _, rfl⟩
    · rw [if_neg hpv]; exact ⟨_, _, rfl⟩
  obtain ⟨j, q, ec⟩ := ec
  rw [ec, Res.ok_bind, rcOpen, if_neg (by simp [hm]), Res.pure_eq, Res.ok_bind, hm] at e
  simp only at e
  obtain ⟨len, b1, b2, b3, r, er, c1, c2, ef⟩ := rcFin_eq h s q ⟨i, j, l.length, start, 0, false⟩ rfl h1 (Nat.le_refl _) a1
  simp only at b1 b2 b3 er c1 c2 ef
  have h47 : ∀ t, t ≤ l.length → B (i + t) ≠ 47#8 := by
    intro t ht hx
    by_cases hlt : t < l.length
    · rw [sitsAt_get hs _ hlt] at hx
      exact hno (by rw [← hx]; exact List.getElem_mem _)
    · rw [show t = l.length by omega, h.nl] at hx
      exact absurd hx (by decide)
  have h34 : B (i + len) ≠ 34#8 := by
    by_cases hx : len < l.length
    · have := b2 len (by omega) hx
      intro h
      rw [h] at this
      exact absurd this (by decide +kernel)
    · rw [show i + len = i + l.length by omega, h.nl]
      decide
  obtain ⟨r', er', d1, d2, d3⟩ := rcRest_noslash (start := start) (by omega : i + len < 1000000) h34 (fun t ht => h47 t (by omega)) (len - j + 1) ⟨j, q, 0, s.ccms, false⟩
  rw [er'] at er
  have hr := (Res.ok.inj er)
  subst hr
  simp only at d1 d2 d3
  have hns : (decide (B (i + start) = 47#8) && decide (B (i + start + 1) = 42#8)) = false := by simp [h47 start a1]
  refine ⟨_, _, e.trans ef, ?_, ?_, ?_⟩
  · simp [d1]
  · simp [d2, hc]
  · right
    refine ⟨i, ?_, Nat.le_refl _, ?_, ?_⟩
    · simp only [d3, hns]; rfl
    · simp only [d1, hns]; simp; omega
    · simp only [d1, hns]
      simp only [Bool.false_eq_true, if_false, ne_eq, not_true_eq_false]
      rw [out_take hs ha b1, trimEnd_eq hs ha b1 b2 b3]

end Minilib

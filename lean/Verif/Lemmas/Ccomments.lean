import Verif.Model.Ccomments
/-
Lemmas on the filter that removes comments (Props/Ccomments).
-/

set_option autoImplicit false

namespace Minilib

/-- Decided readable: the index is inside of the array. -/
theorem rcRd_ok {B : Nat → Byte} {i : Nat} (h : i < 1000000) : rcRd B (i : Nat) = .ok (B i) := by
  have : (0 : Int) ≤ (i : Int) ∧ (i : Int) < (rcBufsize : Int) := by simp only [rcBufsize]; omega
  simp [rcRd, this]

theorem rcRd_int {B : Nat → Byte} {x : Int} {i : Nat} (hx : x = i) (h : i < 1000000) : rcRd B x = .ok (B i) := by
  subst hx
  exact rcRd_ok h

theorem rcDigits_le {k : Nat} : ∀ {x : Nat}, x < 10 ^ (k + 1) → rcDigits x ≤ k + 1 := by
  induction k with
  | zero => intro x h; rw [rcDigits, if_pos (by simpa using h)]; omega
  | succ k ih =>
    intro x h
    rw [rcDigits]
    split
    · omega
    · have := ih (x := x / 10) (by rw [Nat.pow_succ] at h; omega)
      omega

/-- The scan stops at the first byte that stops it, or at the end. -/
theorem rcScan_spec (stop : Byte → Bool) (B : Nat → Byte) (p : Nat) : ∀ (k j : Nat), p + j + k < 1000000 →
    ∃ j', rcScan stop B p k j = .ok j' ∧ j ≤ j' ∧ j' ≤ j + k ∧ (∀ t, j ≤ t → t < j' → stop (B (p + t)) = false) ∧
      (j' < j + k → stop (B (p + j')) = true) := by
  intro k
  induction k with
  | zero =>
    intro j h
    refine ⟨j, ?_, by omega, by omega, fun t h1 h2 => by omega, fun h => by omega⟩
    rw [rcScan, rcRd_ok (by omega)]
    rfl
  | succ k ih =>
    intro j h
    rw [rcScan, rcRd_ok (by omega)]
    simp only [Res.ok_bind]
    by_cases hs : stop (B (p + j)) = true
    · refine ⟨j, by simp [hs, pure], by omega, by omega, fun t h1 h2 => by omega, fun _ => hs⟩
    · obtain ⟨j', e, h1, h2, h3, h4⟩ := ih (j + 1) (by omega)
      refine ⟨j', by simp [hs, e], by omega, by omega, ?_, fun h => h4 (by omega)⟩
      intro t ht ht'
      by_cases htj : t = j
      · subst htj
        simpa using hs
      · exact h3 t (by omega) ht'

theorem rcQuote_spec (B : Nat → Byte) (p len : Nat) (hp : p + len < 1000000) : ∀ (k j : Nat), j ≤ len → 1 ≤ p + j →
    ∃ r, rcQuote B p len k j = .ok r ∧ j ≤ r.2 ∧ r.2 ≤ len ∧ (r.1 = false → len < j + k → r.2 = len) := by
  intro k
  induction k with
  | zero => intro j h _; exact ⟨_, rfl, by simp, h, fun _ h => by simp at h ⊢; omega⟩
  | succ k ih =>
    intro j h h1
    rw [rcQuote]
    by_cases hj : j < len
    · rw [if_pos hj]
      obtain ⟨j', e, a1, a2, a3, a4⟩ := rcScan_spec (fun x => x = 34#8) B p (len - j) j (by omega)
      rw [e]
      simp only [Res.ok_bind]
      by_cases hj' : j' < len
      · rw [if_pos hj', rcRd_int (i := p + j' - 1) (by omega) (by omega)]
        simp only [Res.ok_bind]
        by_cases hc : B (p + j' - 1) = 92#8
        · rw [if_pos hc]
          obtain ⟨r, e, b1, b2, b3⟩ := ih (j' + 1) (by omega) (by omega)
          exact ⟨r, e, by omega, b2, fun h1 h2 => b3 h1 (by omega)⟩
        · rw [if_neg hc]
          exact ⟨_, rfl, by simp; omega, by simp; omega, fun h => by simp at h⟩
      · rw [if_neg hj']
        obtain ⟨r, e, b1, b2, b3⟩ := ih j' (by omega) (by omega)
        exact ⟨r, e, by omega, b2, fun h1 h2 => by omega⟩
    · rw [if_neg hj]
      exact ⟨_, rfl, by simp, h, fun _ _ => by simp; omega⟩

theorem rcCmsLoop_spec (B : Nat → Byte) (p len : Nat) (hp : p + len < 1000000) : ∀ (k j : Nat), j ≤ len → (j < len → 1 ≤ p + j) →
    ∃ r, rcCmsLoop B p len k j = .ok r ∧ j ≤ r.2 ∧ r.2 ≤ len ∧ (r.1 = false → len < j + k → r.2 = len) := by
  intro k
  induction k with
  | zero => intro j h _; exact ⟨_, rfl, by simp, h, fun _ h => by simp at h ⊢; omega⟩
  | succ k ih =>
    intro j h h1
    rw [rcCmsLoop]
    by_cases hj : j < len
    · have h1 := h1 hj
      rw [if_pos hj]
      obtain ⟨j', e, a1, a2, a3, a4⟩ := rcScan_spec (fun x => x = 47#8) B p (len - j) j (by omega)
      rw [e]
      simp only [Res.ok_bind]
      by_cases hj' : j' < len
      · rw [if_pos hj', rcRd_int (i := p + j' - 1) (by omega) (by omega)]
        simp only [Res.ok_bind]
        by_cases hc : B (p + j' - 1) = 42#8
        · rw [if_pos hc]
          exact ⟨_, rfl, by simp; omega, by simp; omega, fun h => by simp at h⟩
        · rw [if_neg hc]
          obtain ⟨r, e, b1, b2, b3⟩ := ih (j' + 1) (by omega) (by omega)
          exact ⟨r, e, by omega, b2, fun h1 h2 => b3 h1 (by omega)⟩
      · rw [if_neg hj']
        obtain ⟨r, e, b1, b2, b3⟩ := ih j' (by omega) (by omega)
        exact ⟨r, e, by omega, b2, fun h1 h2 => by omega⟩
    · rw [if_neg hj]
      exact ⟨_, rfl, by simp, h, fun _ _ => by simp; omega⟩

theorem rcCms_spec (B : Nat → Byte) (p pos len : Nat) (hp : p + len < 1000000) (h : pos ≤ len) :
    ∃ r, rcCms B p pos len = .ok r ∧ pos ≤ r.2 ∧ r.2 ≤ len ∧ (r.1 = false → r.2 = len) := by
  rw [rcCms]
  obtain ⟨r, e, h1, h2, h3⟩ := rcCmsLoop_spec B p len hp (len - (if pos < len then pos + 1 else pos) + 1) (if pos < len then pos + 1 else pos)
    (by split <;> omega) (by split <;> omega)
  exact ⟨r, e, by split at h1 <;> omega, h2, fun h => h3 h (by omega)⟩

/-- A line of `L` bytes at `i`, without carriage returns, and the newline behind it. -/
structure IsLine (B : Nat → Byte) (i L : Nat) : Prop where
  bound : i + L < 1000000
  body : ∀ k, k < L → B (i + k) ≠ 10#8 ∧ B (i + k) ≠ 13#8
  nl : B (i + L) = 10#8

theorem rcLead_spec {B : Nat → Byte} {i L : Nat} (h : IsLine B i L) : ∀ (k j : Nat), j ≤ L → L < j + k →
    ∃ s, rcLead B i k j = .ok s ∧ j ≤ s ∧ s ≤ L ∧ (∀ t, j ≤ t → t < s → rcLow (B (i + t)) = true) ∧ (s < L → rcLow (B (i + s)) = false) := by
  have := h.bound
  intro k
  induction k with
  | zero => intro j h1 h2; omega
  | succ k ih =>
    intro j h1 h2
    rw [rcLead, rcRd_ok (by omega)]
    simp only [Res.ok_bind]
    by_cases hj : j < L
    · have hb := h.body j hj
      by_cases hl : rcLow (B (i + j)) = true
      · rw [if_pos ⟨hl, hb.1, hb.2⟩]
        obtain ⟨s, e, a1, a2, a3, a4⟩ := ih (j + 1) (by omega) (by omega)
        refine ⟨s, e, by omega, a2, ?_, a4⟩
        intro t ht ht'
        by_cases htj : t = j
        · rw [htj]; exact hl
        · exact a3 t (by omega) ht'
      · rw [if_neg (by simp [hl])]
        exact ⟨j, rfl, by omega, by omega, fun t _ _ => by omega, fun _ => by simpa using hl⟩
    · have : j = L := by omega
      subst this
      rw [if_neg (by simp [h.nl])]
      exact ⟨_, rfl, by omega, by omega, fun t _ _ => by omega, fun h => by omega⟩

theorem rcEol_spec {B : Nat → Byte} {i L : Nat} (h : IsLine B i L) : ∀ (k j : Nat), j ≤ L → L < j + k → rcEol B i k j = .ok L := by
  have := h.bound
  intro k
  induction k with
  | zero => intro j h1 h2; omega
  | succ k ih =>
    intro j h1 h2
    rw [rcEol, rcRd_ok (by omega)]
    simp only [Res.ok_bind]
    by_cases hj : j < L
    · rw [if_pos (h.body j hj)]
      exact ih (j + 1) (by omega) (by omega)
    · have : j = L := by omega
      subst this
      rw [if_neg (by simp [h.nl])]
      rfl

theorem rcTrim_spec (B : Nat → Byte) (p : Nat) : ∀ (len : Nat), p + len < 1000000 →
    ∃ n, rcTrim B p len = .ok n ∧ n ≤ len ∧ (∀ t, n ≤ t → t < len → rcLow (B (p + t)) = true) ∧ (0 < n → rcLow (B (p + (n - 1))) = false) := by
  intro len
  induction len with
  | zero => intro _; exact ⟨0, rfl, by omega, fun t _ _ => by omega, fun h => by omega⟩
  | succ len ih =>
    intro h
    rw [rcTrim, rcRd_ok (by omega)]
    simp only [Res.ok_bind]
    by_cases hl : rcLow (B (p + len)) = true
    · rw [if_pos hl]
      obtain ⟨n, e, a1, a2, a3⟩ := ih (by omega)
      refine ⟨n, e, by omega, ?_, a3⟩
      intro t ht ht'
      by_cases htj : t = len
      · rw [htj]; exact hl
      · exact a2 t ht (by omega)
    · rw [if_neg hl]
      exact ⟨_, rfl, by omega, fun t _ _ => by omega, fun _ => by simpa using hl⟩

/-- The loop over the rest of a line: the comment flag is one from before or points into the line, a line to be removed stays one. -/
theorem rcRest_spec (B : Nat → Byte) (p start len : Nat) (hp : p + len < 1000000) (hend : B (p + len) ≠ 34#8 ∧ B (p + len) ≠ 47#8) :
    ∀ (k : Nat) (s : RcScan), ∃ r, rcRest B p start len k s = .ok r ∧ (r.cms = s.cms ∨ r.cms ≤ len) ∧ (s.null = true → r.null = true) := by
  intro k
  induction k with
  | zero => intro s; exact ⟨s, rfl, Or.inl rfl, id⟩
  | succ k ih =>
    intro s
    rw [rcRest]
    by_cases hj : s.j < len
    · rw [if_pos hj]
      obtain ⟨j, e, a1, a2, a3, a4⟩ := rcScan_spec (fun c => c = 34#8 || c = 47#8) B p (len - s.j) s.j (by omega)
      rw [e]
      rw [Res.ok_bind]
      rw [rcRd_ok (by omega)]
      rw [Res.ok_bind]
      by_cases h34 : B (p + j) = 34#8
      · rw [if_pos h34]
        have hjl : j < len := by
          refine Decidable.byContradiction fun hn => ?_
          have : j = len := by omega
          rw [this] at h34
          exact hend.1 h34
        obtain ⟨r, e, b1, b2, b3⟩ := rcQuote_spec B p len hp (len - (j + 1) + 1) (j + 1) (by omega) (by omega)
        rw [e]
        rw [Res.ok_bind]
        by_cases hr : r.1 = true
        · rw [if_pos hr]
          exact ih _
        · rw [if_neg hr]
          exact ⟨_, rfl, Or.inl rfl, id⟩
      · rw [if_neg h34]
        by_cases h47 : B (p + j) = 47#8
        · rw [if_pos h47]
          have hjl : j < len := by
            refine Decidable.byContradiction fun hn => ?_
            have : j = len := by omega
            rw [this] at h47
            exact hend.2 h47
          rw [rcRd_ok (by omega)]
          rw [Res.ok_bind]
          by_cases h42 : B (p + (j + 1)) = 42#8
          · rw [if_pos h42]
            by_cases hj2 : j + 2 ≤ len
            · obtain ⟨r, e, b1, b2, b3⟩ := rcCms_spec B p (j + 2) len hp hj2
              rw [e]
              rw [Res.ok_bind]
              by_cases hr : r.1 = true
              · rw [if_pos hr]
                obtain ⟨q, e, c1, c2⟩ := ih { s with j := r.2, cms := 0 }
                refine ⟨q, e, Or.inr ?_, c2⟩
                rcases c1 with c1 | c1
                · simp only at c1
                  omega
                · exact c1
              · rw [if_neg hr]
                exact ⟨_, rfl, Or.inr (by simp; omega), id⟩
            · have : rcCms B p (j + 2) len = .ok (false, j + 2) := by
                rw [rcCms, if_neg (by omega), rcCmsLoop, if_neg (by omega)]
                rfl
              rw [this]
              rw [Res.ok_bind]
              exact ⟨_, rfl, Or.inr (by simp; omega), id⟩
          · rw [if_neg h42]
            by_cases h47' : B (p + (j + 1)) = 47#8
            · rw [if_pos h47']
              exact ⟨_, rfl, Or.inl rfl, fun h => by simp only at *; simp [h]⟩
            · rw [if_neg h47']
              exact ih _
        · rw [if_neg h47]
          exact ih _
    · rw [if_neg hj]
      exact ⟨s, rfl, Or.inl rfl, id⟩

/-- What is done once it is known where a line starts. -/
def rcFin (B : Nat → Byte) (s : RcSt) (quote : Bool) (h : RcHead) : Res (Nat × RcLine × RcSt) := do
  let c ← rcRd B ((h.p : Int) + h.len - 1)
  let prev := decide (c = 92#8) && decide (0 < h.len)
  let e ← rcRd B (h.p + h.len : Nat)
  let i' ← (if e = 13#8 then do
      let e ← rcRd B (h.p + h.len + 1 : Nat)
      pure (if e = 10#8 then h.p + h.len + 1 else h.p + h.len)
    else pure (h.p + h.len) : Res Nat)
  let len ← rcTrim B h.p h.len
  let r ← rcRest B h.p h.start len (len - h.j + 1) ⟨h.j, quote, h.cms, s.ccms, h.null⟩
  let x ← rcEntry B h len prev r
  pure (i', x.1, x.2)

/-- A line, up to where it is known where it starts. -/
theorem rcStep_eq {B : Nat → Byte} {n i L : Nat} (h : IsLine B i L) (hn : n + 1 < 100000) (hL : L < 10000) (s : RcSt) :
    ∃ start, start ≤ L ∧ (∀ t, t < start → rcLow (B (i + t)) = true) ∧ (start < L → rcLow (B (i + start)) = false) ∧
      rcStep B n i s = (rcCont B i start L s >>= fun a => rcOpen B i a.1 L start s.cms a.2.2 >>= fun h => rcFin B s a.2.1 h) := by
  have hb := h.bound
  obtain ⟨start, e, h1, h2, h3, h4⟩ := rcLead_spec h (rcBufsize - i) 0 (by omega) (by simp only [rcBufsize]; omega)
  refine ⟨start, h2, fun t ht => h3 t (by omega) ht, h4, ?_⟩
  have e2 := rcEol_spec h (rcBufsize - (i + start)) start h2 (by simp only [rcBufsize]; omega)
  have w1 : rcDigits (n + 1) ≤ 5 := rcDigits_le (k := 4) (by omega)
  have w2 : rcDigits start ≤ 4 := rcDigits_le (k := 3) (by omega)
  have w3 : rcDigits L ≤ 4 := rcDigits_le (k := 3) (by omega)
  have hw : ¬ 16 < rcWidth (n + 1) + 1 + rcWidth start + 1 + rcWidth L + 1 := by
    simp only [rcWidth]
    omega
  have hm : ¬ rcMaxline ≤ n := by simp only [rcMaxline]; omega
  rw [rcStep, e, Res.ok_bind, e2, Res.ok_bind, if_neg hm, if_neg hw]
  rfl

/-- A line, once it is known where it starts. -/
theorem rcFin_eq {B : Nat → Byte} {i L : Nat} (hl : IsLine B i L) (s : RcSt) (q : Bool) (h : RcHead) (hp : h.p + h.len = i + L) (h1 : 1 ≤ i + L)
    (hi : i ≤ h.p) (hs : h.start ≤ h.len) :
    ∃ len, len ≤ h.len ∧ (∀ t, len ≤ t → t < h.len → rcLow (B (h.p + t)) = true) ∧ (0 < len → rcLow (B (h.p + (len - 1))) = false) ∧
      ∃ r, rcRest B h.p h.start len (len - h.j + 1) ⟨h.j, q, h.cms, s.ccms, h.null⟩ = .ok r ∧ (r.cms = h.cms ∨ r.cms ≤ len) ∧ (h.null = true → r.null = true) ∧
      rcFin B s q h = .ok (i + L,
        ⟨if r.null || ((decide (B (h.p + h.start) = 47#8) && decide (B (h.p + h.start + 1) = 42#8)) && (decide (r.cms ≠ 0) || decide (r.j = len))) then none
          else some h.p,
          if (decide (B (h.p + h.start) = 47#8) && decide (B (h.p + h.start + 1) = 42#8)) then len else if r.cms ≠ 0 then r.cms - 1 else len⟩,
        ⟨decide (B (i + L - 1) = 92#8) && decide (0 < h.len), (decide (B (i + L - 1) = 92#8) && decide (0 < h.len)) && r.quote, r.cms,
          (decide (B (i + L - 1) = 92#8) && decide (0 < h.len)) && r.ccms⟩) := by
  have hb := hl.bound
  obtain ⟨len, e, a1, a2, a3⟩ := rcTrim_spec B h.p h.len (by omega)
  refine ⟨len, a1, a2, a3, ?_⟩
  have hend : B (h.p + len) ≠ 34#8 ∧ B (h.p + len) ≠ 47#8 := by
    by_cases hx : len < h.len
    · have := a2 len (by omega) hx
      refine ⟨fun h => ?_, fun h => ?_⟩ <;> rw [h] at this <;> exact absurd this (by decide +kernel)
    · have : h.p + len = i + L := by omega
      rw [this, hl.nl]
      exact ⟨by decide, by decide⟩
  obtain ⟨r, er, b1, b2⟩ := rcRest_spec B h.p h.start len (by omega) hend (len - h.j + 1) ⟨h.j, q, h.cms, s.ccms, h.null⟩
  refine ⟨r, er, b1, b2, ?_⟩
  have c1 : rcRd B ((h.p : Int) + h.len - 1) = .ok (B (i + L - 1)) := rcRd_int (by omega) (by omega)
  have c2 : rcRd B (h.p + h.len : Nat) = .ok 10#8 := by rw [hp, rcRd_ok hb, hl.nl]
  rw [rcFin, c1, Res.ok_bind, c2, Res.ok_bind, if_neg (by decide), Res.pure_eq, Res.ok_bind, e, Res.ok_bind, er, Res.ok_bind, rcEntry, rcRd_ok (by omega),
    Res.ok_bind]
  by_cases h47 : B (h.p + h.start) = 47#8
  · have hlt : h.start < h.len := by
      refine Decidable.byContradiction fun hn => ?_
      have : h.p + h.start = i + L := by omega
      rw [this, hl.nl] at h47
      exact absurd h47 (by decide)
    rw [if_pos h47, rcRd_ok (by omega)]
    simp [h47, hp]
  · rw [if_neg h47]
    simp [h47, hp]

/-- What an entry prints. -/
def EntryOut (B : Nat → Byte) (i L : Nat) (e : RcLine) (o : List Byte) : Prop :=
  (e.p = none ∧ o = []) ∨
    ∃ p, e.p = some p ∧ i ≤ p ∧ p + e.n ≤ i + L ∧ o = ((List.range e.n).map (fun t => B (p + t))).takeWhile (· ≠ 0#8)

/-- Every line is handled, and what is printed of it is a part of it. -/
theorem rcStep_shape {B : Nat → Byte} {n i L : Nat} (h : IsLine B i L) (hn : n + 1 < 100000) (hL : L < 10000) (s : RcSt)
    (h1 : 1 ≤ i + L) (hs : s.prev = true → 1 ≤ i) :
    ∃ e s', rcStep B n i s = .ok (i + L, e, s') ∧ (e.p = none ∨ ∃ p, e.p = some p ∧ i ≤ p ∧ p + e.n ≤ i + L) := by
  have hb := h.bound
  obtain ⟨start, a1, a2, a3, e⟩ := rcStep_eq h hn hL s
  have hc : ∃ j q nl, rcCont B i start L s = .ok (j, q, nl) ∧ j ≤ L := by
    rw [rcCont]
    by_cases hp : s.prev = true
    · rw [if_pos hp]
      by_cases hq : s.quote = true
      · rw [if_pos hq]
        obtain ⟨r, e, b1, b2, b3⟩ := rcQuote_spec B i L hb (L - start + 1) start a1 (by have := hs hp; omega)
        rw [e, Res.ok_bind, Res.pure_eq, Res.ok_bind]
        by_cases hcc : s.ccms = true
        · rw [if_pos hcc]; exact ⟨_, _, _, rfl, Nat.le_refl _⟩
        · rw [if_neg hcc]; exact ⟨_, _, _, rfl, b2⟩
      · rw [if_neg hq, Res.pure_eq, Res.ok_bind]
        by_cases hcc : s.ccms = true
        · rw [if_pos hcc]; exact ⟨_, _, _, rfl, Nat.le_refl _⟩
        · rw [if_neg hcc]; exact ⟨_, _, _, rfl, a1⟩
    · rw [if_neg hp]; exact ⟨_, _, _, rfl, a1⟩
  obtain ⟨j, q, nl, ec, hj⟩ := hc
  have ho : ∃ hd : RcHead, rcOpen B i j L start s.cms nl = .ok hd ∧ hd.p + hd.len = i + L ∧ i ≤ hd.p ∧ hd.start ≤ hd.len ∧ (hd.cms ≠ 0 → hd.null = true) := by
    rw [rcOpen]
    by_cases hz : s.cms ≠ 0
    · rw [if_pos hz]
      obtain ⟨r, e, b1, b2, b3⟩ := rcCms_spec B i j L hb hj
      rw [e, Res.ok_bind]
      by_cases hr : r.1 = true
      · rw [if_pos hr]
        obtain ⟨b, eb, c1, c2, c3, c4⟩ := rcScan_spec (fun c => !rcLow c) B (i + r.2) (L - r.2) 0 (by omega)
        rw [eb, Res.ok_bind]
        exact ⟨_, rfl, by simp; omega, by simp, by simp; omega, fun h => by simp at h⟩
      · rw [if_neg hr]
        exact ⟨_, rfl, rfl, Nat.le_refl _, a1, fun _ => rfl⟩
    · rw [if_neg hz]
      exact ⟨_, rfl, rfl, Nat.le_refl _, a1, fun h => absurd h hz⟩
  obtain ⟨hd, eo, d1, d2, d3, d4⟩ := ho
  obtain ⟨len, f1, f2, f3, r, er, g1, g2, g3⟩ := rcFin_eq h s q hd d1 h1 d2 d3
  refine ⟨_, _, by rw [e, ec, Res.ok_bind, eo, Res.ok_bind, g3], ?_⟩
  by_cases hnull : (r.null || ((decide (B (hd.p + hd.start) = 47#8) && decide (B (hd.p + hd.start + 1) = 42#8)) && (decide (r.cms ≠ 0) || decide (r.j = len)))) = true
  · left
    simp only [hnull, if_true]
  · right
    refine ⟨hd.p, by simp only [hnull]; rfl, d2, ?_⟩
    have hrn : ¬ r.null = true := fun h => hnull (by rw [h]; rfl)
    have hz : hd.cms = 0 := Decidable.byContradiction fun hn => hrn (g2 (d4 hn))
    simp only
    split
    · omega
    · split
      · omega
      · omega

/-- The scan is determined by its first stop. -/
theorem rcScan_eq {stop : Byte → Bool} {B : Nat → Byte} {p : Nat} : ∀ {k j : Nat} (t : Nat), p + j + k < 1000000 → t ≤ k →
    (∀ u, u < t → stop (B (p + j + u)) = false) → (t < k → stop (B (p + j + t)) = true) → rcScan stop B p k j = .ok (j + t) := by
  intro k j t h1 h2 h3 h4
  obtain ⟨j', e, a1, a2, a3, a4⟩ := rcScan_spec stop B p k j h1
  have : j' = j + t := by
    rcases Nat.lt_trichotomy j' (j + t) with hlt | heq | hgt
    · have x := a4 (by omega)
      have y := h3 (j' - j) (by omega)
      rw [show p + j + (j' - j) = p + j' by omega, x] at y
      exact absurd y (by decide)
    · exact heq
    · have x := h4 (by omega)
      have y := a3 (j + t) (by omega) (by omega)
      rw [← Nat.add_assoc, x] at y
      exact absurd y (by decide)
  rw [e, this]

/-- The search for the end of a comment finds the first one. -/
theorem rcCmsLoop_find {B : Nat → Byte} {p len : Nat} (hp : p + len < 1000000) : ∀ (k j : Nat), 1 ≤ p + j → j ≤ len → len < j + k →
    (∀ t, j ≤ t → t < len → B (p + t) = 47#8 → B (p + t - 1) ≠ 42#8) → rcCmsLoop B p len k j = .ok (false, len) := by
  intro k
  induction k with
  | zero => intro j _ h1 h2; omega
  | succ k ih =>
    intro j h0 h1 h2 h3
    rw [rcCmsLoop]
    by_cases hj : j < len
    · rw [if_pos hj]
      obtain ⟨j', e, a1, a2, a3, a4⟩ := rcScan_spec (fun x => x = 47#8) B p (len - j) j (by omega)
      rw [e, Res.ok_bind]
      by_cases hj' : j' < len
      · rw [if_pos hj', rcRd_int (i := p + j' - 1) (by omega) (by omega), Res.ok_bind]
        have := h3 j' a1 hj' (by simpa using a4 (by omega))
        rw [if_neg this]
        exact ih (j' + 1) (by omega) (by omega) (by omega) (fun t ht => h3 t (by omega))
      · rw [if_neg hj']
        cases k with
        | zero => omega
        | succ k =>
          rw [rcCmsLoop, if_neg hj']
          rw [show j' = len by omega]
          rfl
    · rw [if_neg hj, show j = len by omega]
      rfl

theorem rcCmsLoop_hit {B : Nat → Byte} {p len : Nat} (hp : p + len < 1000000) (q : Nat) (hq : q < len) (h47 : B (p + q) = 47#8) (h42 : B (p + q - 1) = 42#8) :
    ∀ (k j : Nat), 1 ≤ p + j → j ≤ q → len < j + k →
    (∀ t, j ≤ t → t < q → B (p + t) = 47#8 → B (p + t - 1) ≠ 42#8) → rcCmsLoop B p len k j = .ok (true, q + 1) := by
  intro k
  induction k with
  | zero => intro j _ h1 h2; omega
  | succ k ih =>
    intro j h0 h1 h2 h3
    rw [rcCmsLoop, if_pos (by omega)]
    obtain ⟨j', e, a1, a2, a3, a4⟩ := rcScan_spec (fun x => x = 47#8) B p (len - j) j (by omega)
    have hj' : j' ≤ q := by
      refine Decidable.byContradiction fun hn => ?_
      have := a3 q (by omega) (by omega)
      simp [h47] at this
    rw [e, Res.ok_bind, if_pos (by omega), rcRd_int (i := p + j' - 1) (by omega) (by omega), Res.ok_bind]
    by_cases hx : j' = q
    · subst hx
      rw [if_pos h42]
      rfl
    · have := h3 j' a1 (by omega) (by simpa using a4 (by omega))
      rw [if_neg this]
      exact ih (j' + 1) (by omega) (by omega) (by omega) (fun t ht => h3 t (by omega))

theorem rcCms_find {B : Nat → Byte} {p pos len : Nat} (hp : p + len < 1000000) (h1 : pos ≤ len)
    (h : ∀ t, pos ≤ t → t + 1 < len → B (p + t) = 42#8 → B (p + t + 1) ≠ 47#8) : rcCms B p pos len = .ok (false, len) := by
  rw [rcCms]
  by_cases hx : pos < len
  · rw [if_pos hx]
    refine rcCmsLoop_find hp _ _ (by omega) (by omega) (by omega) ?_
    intro t h1 h2 h3 h4
    have := h (t - 1) (by omega) (by omega) (by rw [← h4]; congr 1; omega)
    rw [show p + (t - 1) + 1 = p + t by omega] at this
    exact this h3
  · rw [if_neg hx, show pos = len by omega, rcCmsLoop, if_neg (by omega)]
    rfl

theorem rcCms_hit {B : Nat → Byte} {p pos len : Nat} (hp : p + len < 1000000) (q : Nat) (h1 : pos ≤ q) (hq : q + 1 < len) (h42 : B (p + q) = 42#8)
    (h47 : B (p + q + 1) = 47#8) (h : ∀ t, pos ≤ t → t < q → B (p + t) = 42#8 → B (p + t + 1) ≠ 47#8) : rcCms B p pos len = .ok (true, q + 2) := by
  rw [rcCms, if_pos (by omega)]
  refine rcCmsLoop_hit hp (q + 1) hq h47 ?_ _ _ (by omega) (by omega) (by omega) ?_
  · rw [← h42]; congr 1
  · intro t h1 h2 h3 h4
    have := h (t - 1) (by omega) (by omega) (by rw [← h4]; congr 1; omega)
    rw [show p + (t - 1) + 1 = p + t by omega] at this
    exact this h3

/-- A byte that is neither quote nor slash is passed. -/
theorem rcRest_chr {B : Nat → Byte} {p start len : Nat} (hp : p + len < 1000000) (hend : B (p + len) ≠ 34#8 ∧ B (p + len) ≠ 47#8) (k : Nat) (s : RcScan)
    (hj : s.j < len) (h : B (p + s.j) ≠ 34#8 ∧ B (p + s.j) ≠ 47#8) :
    rcRest B p start len (k + 1) s = rcRest B p start len (k + 1) { s with j := s.j + 1 } := by
  obtain ⟨j, e, a1, a2, a3, a4⟩ := rcScan_spec (fun c => c = 34#8 || c = 47#8) B p (len - s.j) s.j (by omega)
  have hne : j ≠ s.j := by
    intro heq
    have := a4 (by omega)
    rw [heq] at this
    simp [h.1, h.2] at this
  by_cases hl : s.j + 1 < len
  · have e2 : rcScan (fun c => c = 34#8 || c = 47#8) B p (len - (s.j + 1)) (s.j + 1) = .ok j := by
      have := rcScan_eq (stop := fun c => c = 34#8 || c = 47#8) (B := B) (p := p) (k := len - (s.j + 1)) (j := s.j + 1) (j - (s.j + 1)) (by omega) (by omega)
        (fun u hu => by have := a3 (s.j + 1 + u) (by omega) (by omega); rwa [← Nat.add_assoc] at this)
        (fun hu => by have := a4 (by omega); rw [show p + (s.j + 1) + (j - (s.j + 1)) = p + j by omega]; exact this)
      rw [this]
      congr 1
      omega
    rw [rcRest, if_pos hj, e, Res.ok_bind, rcRest, if_pos hl, e2, Res.ok_bind]
  · have hjl : j = len := by omega
    rw [rcRest, if_pos hj, e, Res.ok_bind, rcRd_ok (by omega), Res.ok_bind, hjl, if_neg hend.1, if_neg hend.2]
    rw [show s.j + 1 = len by omega]
    rw [rcRest.eq_def B p start len (k + 1) _]
    simp only [Nat.lt_irrefl, if_false]
    cases k with
    | zero => rfl
    | succ k =>
      rw [rcRest, if_neg (by simp)]

/-- A slash that starts no comment is passed. -/
theorem rcRest_slash {B : Nat → Byte} {p start len : Nat} (hp : p + len < 1000000) (k : Nat) (s : RcScan)
    (hj : s.j < len) (h : B (p + s.j) = 47#8) (h1 : B (p + (s.j + 1)) ≠ 42#8 ∧ B (p + (s.j + 1)) ≠ 47#8) :
    rcRest B p start len (k + 1) s = rcRest B p start len k { s with j := s.j + 1 } := by
  have e := rcScan_eq (stop := fun c => c = 34#8 || c = 47#8) (B := B) (p := p) (k := len - s.j) (j := s.j) 0 (by omega) (by omega) (fun u hu => by omega)
    (fun _ => by simp [h])
  rw [rcRest, if_pos hj, e, Res.ok_bind, Nat.add_zero, rcRd_ok (by omega), Res.ok_bind, h, if_neg (by decide), if_pos rfl, rcRd_ok (by omega), Res.ok_bind,
    if_neg h1.1, if_neg h1.2]

/-- The search for the end of a string. -/
theorem rcQuote_hit {B : Nat → Byte} {p len : Nat} (hp : p + len < 1000000) (q : Nat) (hq : q < len) (h34 : B (p + q) = 34#8) (h92 : B (p + q - 1) ≠ 92#8) :
    ∀ (k j : Nat), 1 ≤ p + j → j ≤ q → len < j + k →
    (∀ t, j ≤ t → t < q → B (p + t) = 34#8 → B (p + t - 1) = 92#8) → rcQuote B p len k j = .ok (true, q + 1) := by
  intro k
  induction k with
  | zero => intro j _ h1 h2; omega
  | succ k ih =>
    intro j h0 h1 h2 h3
    rw [rcQuote, if_pos (by omega)]
    obtain ⟨j', e, a1, a2, a3, a4⟩ := rcScan_spec (fun x => x = 34#8) B p (len - j) j (by omega)
    have hj' : j' ≤ q := by
      refine Decidable.byContradiction fun hn => ?_
      have := a3 q (by omega) (by omega)
      simp [h34] at this
    rw [e, Res.ok_bind, if_pos (by omega), rcRd_int (i := p + j' - 1) (by omega) (by omega), Res.ok_bind]
    by_cases hx : j' = q
    · subst hx
      rw [if_neg h92]
      rfl
    · have := h3 j' a1 (by omega) (by simpa using a4 (by omega))
      rw [if_pos this]
      exact ih (j' + 1) (by omega) (by omega) (by omega) (fun t ht => h3 t (by omega))

/-- A string is passed. -/
theorem rcRest_str {B : Nat → Byte} {p start len : Nat} (hp : p + len < 1000000) (k : Nat) (s : RcScan) (q : Nat)
    (hj : s.j < q) (hq : q < len) (h : B (p + s.j) = 34#8) (h34 : B (p + q) = 34#8) (h92 : B (p + q - 1) ≠ 92#8)
    (h3 : ∀ t, s.j < t → t < q → B (p + t) = 34#8 → B (p + t - 1) = 92#8) :
    rcRest B p start len (k + 1) s = rcRest B p start len k { s with j := q + 1 } := by
  have e := rcScan_eq (stop := fun c => c = 34#8 || c = 47#8) (B := B) (p := p) (k := len - s.j) (j := s.j) 0 (by omega) (by omega) (fun u hu => by omega)
    (fun _ => by simp [h])
  rw [rcRest, if_pos (by omega), e, Res.ok_bind, Nat.add_zero, rcRd_ok (by omega), Res.ok_bind, h, if_pos rfl,
    rcQuote_hit hp q hq h34 h92 _ _ (by omega) (by omega) (by omega) (fun t ht => h3 t (by omega)), Res.ok_bind, if_pos rfl]

/-- Without any slash only the string flag changes. -/
theorem rcRest_noslash {B : Nat → Byte} {p start len : Nat} (hp : p + len < 1000000) (hend : B (p + len) ≠ 34#8)
    (hno : ∀ t, t ≤ len → B (p + t) ≠ 47#8) : ∀ (k : Nat) (s : RcScan), ∃ r, rcRest B p start len k s = .ok r ∧ r.cms = s.cms ∧ r.ccms = s.ccms ∧ r.null = s.null := by
  intro k
  induction k with
  | zero => intro s; exact ⟨s, rfl, rfl, rfl, rfl⟩
  | succ k ih =>
    intro s
    rw [rcRest]
    by_cases hj : s.j < len
    · rw [if_pos hj]
      obtain ⟨j, e, a1, a2, a3, a4⟩ := rcScan_spec (fun c => c = 34#8 || c = 47#8) B p (len - s.j) s.j (by omega)
      rw [e, Res.ok_bind, rcRd_ok (by omega), Res.ok_bind]
      by_cases h34 : B (p + j) = 34#8
      · rw [if_pos h34]
        have hjl : j < len := by
          refine Decidable.byContradiction fun hn => ?_
          have : j = len := by omega
          rw [this] at h34
          exact hend h34
        obtain ⟨r, e, b1, b2, b3⟩ := rcQuote_spec B p len hp (len - (j + 1) + 1) (j + 1) (by omega) (by omega)
        rw [e, Res.ok_bind]
        by_cases hr : r.1 = true
        · rw [if_pos hr]
          exact ih _
        · rw [if_neg hr]
          exact ⟨_, rfl, rfl, rfl, rfl⟩
      · rw [if_neg h34, if_neg (hno j (by omega))]
        exact ih _
    · rw [if_neg hj]
      exact ⟨s, rfl, rfl, rfl, rfl⟩

end Minilib

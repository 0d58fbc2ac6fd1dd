import Verif.Lemmas.CcommentsDoc
import Verif.Lemmas.Streams
import Verif.Props.Tools
/-
Lemmas on a whole run of the filter that removes comments (Props/Ccomments).
-/

set_option autoImplicit false

namespace Minilib
open Spec

/-- The flags at the start. -/
def rcInit : RcSt := ⟨false, false, 0, false⟩

/-- The lines of a text that starts at `i`. -/
def LinesAt (B : Nat → Byte) : Nat → List (List Byte) → Prop
  | _, [] => True
  | i, l :: ls => IsLine B i l.length ∧ SitsAt B i l ∧ LinesAt B (i + l.length + 1) ls

/-- Where the lines are, seen from the end of the text. -/
def Spans (total : Nat) : Nat → List (List Byte) → Prop
  | i, [] => total ≤ i
  | i, l :: ls => i < total ∧ Spans total (i + l.length + 1) ls

/-- What the entries print. -/
def Fits (B : Nat → Byte) : Nat → List RcLine → List (List Byte) → List (List Byte) → Prop
  | _, [], [], [] => True
  | i, e :: es, l :: ls, o :: os => EntryOut B i l.length e o ∧ i + l.length < 1000000 ∧ Fits B (i + l.length + 1) es ls os
  | _, _, _, _ => False

/-- The loop over the lines, from what one line does. -/
theorem rcLines_sim {B : Nat → Byte} {total : Nat} (P : RcSt → List (List Byte) → (List (List Byte) → Prop) → Prop)
    (hnil : ∀ s post, P s [] post → post [])
    (hstep : ∀ n i s l ls post, IsLine B i l.length → SitsAt B i l → n + 1 < 100000 → l.length < 10000 → 1 ≤ i + l.length → (1 ≤ i ∨ s = rcInit) →
      P s (l :: ls) post → ∃ e s' o, rcStep B n i s = .ok (i + l.length, e, s') ∧ EntryOut B i l.length e o ∧ P s' ls (fun os => post (o :: os))) :
    ∀ (ls : List (List Byte)) (k n i : Nat) (s : RcSt) (post : List (List Byte) → Prop), LinesAt B i ls → Spans total i ls → ls.length ≤ k →
      n + ls.length < 100000 → (∀ l ∈ ls, l.length < 10000) → (∀ l, ls.head? = some l → 1 ≤ i + l.length) → (1 ≤ i ∨ s = rcInit) → P s ls post →
      ∃ es os, rcLines B total k n i s = .ok es ∧ Fits B i es ls os ∧ post os := by
  intro ls
  induction ls with
  | nil =>
    intro k n i s post h1 h2 h3 h4 h5 h6 h7 h8
    refine ⟨[], [], ?_, True.intro, hnil s post h8⟩
    cases k with
    | zero => rfl
    | succ k => rw [rcLines, if_neg (by have : total ≤ i := h2; omega)]; rfl
  | cons l ls ih =>
    intro k n i s post h1 h2 h3 h4 h5 h6 h7 h8
    obtain ⟨a1, a2, a3⟩ := h1
    obtain ⟨b1, b2⟩ := h2
    simp only [List.length_cons] at h3 h4
    obtain ⟨e, s', o, c1, c2, c3⟩ := hstep n i s l ls post a1 a2 (by omega) (h5 l (by simp)) (h6 l rfl) h7 h8
    cases k with
    | zero => omega
    | succ k =>
      obtain ⟨es, os, d1, d2, d3⟩ := ih k (n + 1) (i + l.length + 1) s' _ a3 b2 (by omega) (by omega) (fun x hx => h5 x (by simp [hx]))
        (fun x _ => by omega) (Or.inl (by omega)) c3
      refine ⟨e :: es, o :: os, ?_, ⟨c2, a1.bound, d2⟩, d3⟩
      rw [rcLines, if_pos b1, c1, Res.ok_bind]
      simp only
      rw [d1, Res.ok_bind]
      rfl

theorem rcStr_eq {B : Nat → Byte} : ∀ (n k p : Nat), p + n < 1000000 → n < k → B (p + n) = 0#8 →
    rcStr B k p = .ok (((List.range n).map (fun t => B (p + t))).takeWhile (· ≠ 0#8)) := by
  intro n
  induction n with
  | zero =>
    intro k p h1 h2 h3
    cases k with
    | zero => omega
    | succ k => rw [rcStr, rcRd_ok (by omega), Res.ok_bind, if_pos (by simpa using h3)]; rfl
  | succ n ih =>
    intro k p h1 h2 h3
    cases k with
    | zero => omega
    | succ k =>
      rw [rcStr, rcRd_ok (by omega), Res.ok_bind, List.range_succ_eq_map, List.map_cons, List.takeWhile_cons]
      by_cases hz : B p = 0#8
      · rw [if_pos hz, if_neg (by simp [hz])]; rfl
      · rw [if_neg hz, ih k (p + 1) (by omega) (by omega) (by rw [← h3]; congr 1; omega), Res.ok_bind, if_pos (by simp [hz])]
        rw [List.map_map]
        have : (fun t => B (p + 1 + t)) = (fun t => B (p + t)) ∘ Nat.succ := by
          funext t
          simp only [Function.comp]
          congr 1
          omega
        rw [this]
        rfl

theorem rcPrint_fits {B : Nat → Byte} : ∀ (es : List RcLine) (ls os : List (List Byte)) (i : Nat) (B' : Nat → Byte), Fits B i es ls os →
    (∀ t, i ≤ t → B' t = B t) → rcPrint B' es = .ok (os.flatMap (· ++ [10#8])) := by
  intro es
  induction es with
  | nil =>
    intro ls os i B' h _
    cases ls <;> cases os <;> simp [Fits] at h
    rfl
  | cons e es ih =>
    intro ls os i B' h hB
    cases ls with
    | nil => simp [Fits] at h
    | cons l ls =>
      cases os with
      | nil => simp [Fits] at h
      | cons o os =>
        obtain ⟨h1, h2, h3⟩ := h
        rw [rcPrint]
        rcases h1 with ⟨hp, ho⟩ | ⟨p, hp, p1, p2, ho⟩
        · rw [hp]
          simp only
          rw [ih ls os _ B' h3 (fun t ht => hB t (by omega)), Res.ok_bind, ho]
          rfl
        · rw [hp]
          simp only
          rw [if_neg (by simp only [rcBufsize]; omega)]
          have hz : rcPut B' (p + e.n) [0#8] (p + e.n) = 0#8 := by simp [rcPut]
          have hne : ∀ t, t ≠ p + e.n → rcPut B' (p + e.n) [0#8] t = B' t := by
            intro t ht
            rw [rcPut]
            split
            · have : ([0#8] : List Byte)[t - (p + e.n)]? = none := by
                rw [List.getElem?_eq_none_iff]
                simp
                omega
              rw [this]
              rfl
            · rfl
          rw [rcStr_eq e.n _ p (by omega) (by simp only [rcBufsize]; omega) hz, Res.ok_bind,
            ih ls os _ _ h3 (fun t ht => by rw [hne t (by omega)]; exact hB t (by omega)), Res.ok_bind]
          have : (List.range e.n).map (fun t => rcPut B' (p + e.n) [0#8] (p + t)) = (List.range e.n).map (fun t => B (p + t)) := by
            refine List.map_congr_left ?_
            intro t ht
            rw [List.mem_range] at ht
            rw [hne _ (by omega)]
            exact hB _ (by omega)
          rw [this, ← ho]
          simp

/-- The file is read, whatever the sizes of the pieces. -/
theorem rcReadfile_eq {K : RKernel} (hK : NoErr K) : ∀ (m : Nat) (d : List Byte) (c : Nat) (B : Nat → Byte) (total : Nat), d.length ≤ m →
    total + d.length ≤ 1000000 → ∃ B' s', rcReadfile K ⟨d, c⟩ B total = .ok (((total + d.length : Nat) : Int), B', s') ∧ SitsAt B' total d ∧
      (∀ t, t < total → B' t = B t) := by
  intro m
  induction m with
  | zero =>
    intro d c B total h1 h2
    have : d = [] := List.length_eq_zero_iff.mp (by omega)
    subst this
    refine ⟨B, ⟨[], c + 1⟩, ?_, True.intro, fun _ _ => rfl⟩
    rw [rcReadfile]
    have := hK c 4096
    simp [sysRead, readLen, show ¬ K c 4096 < 0 by omega]
  | succ m ih =>
    intro d c B total h1 h2
    by_cases hd : d = []
    · subst hd
      exact ih [] c B total (by simp) h2
    · have hl : 0 < d.length := List.length_pos_iff.mpr hd
      have hk := hK c 4096
      have hr : 1 ≤ readLen K ⟨d, c⟩ 4096 ∧ readLen K ⟨d, c⟩ 4096 ≤ d.length := by simp only [readLen]; omega
      rw [rcReadfile]
      simp only [sysRead, show ¬ K c 4096 < 0 by omega, if_false]
      generalize hg : readLen K ⟨d, c⟩ 4096 = r at hr
      rw [if_pos (by omega)]
      have htl : (d.take r).length = r := by simp; omega
      rw [htl, if_neg (by simp only [rcBufsize]; omega), if_neg (by simp only [rcBufsize]; omega)]
      obtain ⟨B', s', e, a1, a2⟩ := ih (d.drop r) (c + 1) (rcPut B total (d.take r)) (total + r) (by simp; omega) (by simp; omega)
      refine ⟨B', s', ?_, ?_, ?_⟩
      · rw [e]
        simp only [List.length_drop]
        rw [show total + r + (d.length - r) = total + d.length by omega]
      · rw [← List.take_append_drop r d, sitsAt_append, htl]
        refine ⟨?_, a1⟩
        refine sitsAt_of_get ?_
        intro t ht
        rw [htl] at ht
        rw [a2 _ (by omega), rcPut, if_pos (by omega), Nat.add_sub_cancel_left, List.getElem?_eq_getElem (by omega)]
        rfl
      · intro t ht
        rw [a2 t (by omega), rcPut, if_neg (by omega)]

/-- A file that does not fit overruns the array. -/
theorem rcReadfile_over {K : RKernel} (hK : NoErr K) : ∀ (m : Nat) (d : List Byte) (c : Nat) (B : Nat → Byte) (total : Nat), d.length ≤ m →
    1000000 < total + d.length → total ≤ 1000000 → rcReadfile K ⟨d, c⟩ B total = .ub := by
  intro m
  induction m with
  | zero => intro d c B total h1 h2; omega
  | succ m ih =>
    intro d c B total h1 h2 h3
    have hk := hK c 4096
    have hr : 1 ≤ readLen K ⟨d, c⟩ 4096 ∧ readLen K ⟨d, c⟩ 4096 ≤ d.length := by simp only [readLen]; omega
    rw [rcReadfile]
    simp only [sysRead, show ¬ K c 4096 < 0 by omega, if_false]
    generalize hg : readLen K ⟨d, c⟩ 4096 = r at hr
    rw [if_pos (by omega)]
    have htl : (d.take r).length = r := by simp; omega
    rw [htl]
    by_cases ho : total + r > rcBufsize
    · rw [if_pos ho]
    · rw [if_neg ho, if_neg ho]
      simp only [rcBufsize] at ho
      exact ih (d.drop r) (c + 1) _ (total + r) (by simp; omega) (by simp; omega) (by omega)

theorem chomp_cons {b : Byte} {l : List Byte} (hl : l ≠ []) : chomp (b :: l) = b :: chomp l := by
  cases l with
  | nil => exact absurd rfl hl
  | cons c l =>
    rw [chomp, chomp, List.getLast?_cons_cons]
    split
    · rfl
    · rfl

theorem isLine_cons {B : Nat → Byte} {i L : Nat} (h : IsLine B (i + 1) L) (hb : B i ≠ 10#8 ∧ B i ≠ 13#8) : IsLine B i (L + 1) := by
  refine ⟨by have := h.bound; omega, ?_, by rw [← h.nl]; congr 1; omega⟩
  intro k hk
  cases k with
  | zero => exact hb
  | succ k =>
    have := h.body k (by omega)
    rwa [show i + 1 + k = i + (k + 1) by omega] at this

/-- The lines of a text, behind which a newline was stored. -/
theorem linesAt_text {B : Nat → Byte} : ∀ (d : List Byte) (i : Nat), SitsAt B i (d ++ [10#8]) → 13#8 ∉ d → i + d.length < 1000000 →
    LinesAt B i ((textLines d).map chomp) ∧ Spans (i + d.length) i ((textLines d).map chomp) := by
  intro d
  induction d with
  | nil => intro i _ _ _; exact ⟨True.intro, Nat.le_refl _⟩
  | cons b d ih =>
    intro i hs h13 hlt
    simp only [List.mem_cons, not_or] at h13
    simp only [List.length_cons] at hlt
    obtain ⟨h1, h2⟩ := ih (i + 1) hs.2 h13.2 (by omega)
    rw [textLines]
    by_cases hb : b = 10#8
    · rw [if_pos hb]
      subst hb
      have hc : chomp [10#8] = [] := by decide
      rw [List.map_cons, hc]
      refine ⟨⟨⟨by simp; omega, fun k hk => by simp at hk, hs.1⟩, True.intro, h1⟩, ⟨by simp, ?_⟩⟩
      rw [List.length_cons, show i + (d.length + 1) = i + 1 + d.length by omega]
      exact h2
    · rw [if_neg hb]
      cases ht : textLines d with
      | nil =>
        have hd : d = [] := by rw [← textLines_flatten d, ht]; rfl
        subst hd
        have hc : chomp [b] = [b] := by simp [chomp, hb]
        simp only [List.map_cons, List.map_nil, hc]
        refine ⟨⟨⟨by simp; omega, ?_, hs.2.1⟩, ⟨hs.1, True.intro⟩, True.intro⟩, ⟨by simp, by simp [Spans]⟩⟩
        intro k hk
        have : k = 0 := by simpa using hk
        subst this
        rw [Nat.add_zero, hs.1]
        exact ⟨hb, fun h => h13.1 h.symm⟩
      | cons l ls =>
        have hl : l ≠ [] := textLines_ne (d := d) l (by rw [ht]; simp)
        rw [ht] at h1 h2
        simp only [List.map_cons] at h1 h2 ⊢
        rw [chomp_cons hl]
        obtain ⟨g1, g2, g3⟩ := h1
        obtain ⟨g4, g5⟩ := h2
        have hbi : B i = b := hs.1
        simp only [List.length_cons]
        refine ⟨⟨isLine_cons g1 (by rw [hbi]; exact ⟨hb, fun h => h13.1 h.symm⟩), ⟨hs.1, g2⟩, ?_⟩, ⟨by omega, ?_⟩⟩
        · rw [show i + (b :: chomp l).length + 1 = i + 1 + (chomp l).length + 1 by simp; omega]
          exact g3
        · rw [show i + (b :: chomp l).length + 1 = i + 1 + (chomp l).length + 1 by simp; omega, show i + (d.length + 1) = i + 1 + d.length by omega]
          exact g5

theorem length_textLines (d : List Byte) : (textLines d).length ≤ d.length := by
  induction d with
  | nil => exact Nat.le_refl _
  | cons b d ih =>
    rw [textLines]
    split
    · simp; exact ih
    · split
      · simp
      · rename_i l ls h
        rw [h] at ih
        simp at ih ⊢
        omega

theorem length_chomp_le (l : List Byte) : (chomp l).length ≤ l.length := by
  rw [chomp]
  split
  · simp
  · exact Nat.le_refl _

/-- A run, from what one line does. -/
theorem rcMain_sim {K : RKernel} (hK : NoErr K) (d : List Byte) (c : Nat) (hlen : d.length < 1000000) (h13 : 13#8 ∉ d) (h10 : d.head? ≠ some 10#8)
    (hcnt : (textLines d).length < 100000) (hline : ∀ l ∈ textLines d, l.length < 10000)
    (P : RcSt → List (List Byte) → (List (List Byte) → Prop) → Prop) (hnil : ∀ s post, P s [] post → post [])
    (hstep : ∀ B n i s l ls post, IsLine B i l.length → SitsAt B i l → n + 1 < 100000 → l.length < 10000 → 1 ≤ i + l.length → (1 ≤ i ∨ s = rcInit) →
      P s (l :: ls) post → ∃ e s' o, rcStep B n i s = .ok (i + l.length, e, s') ∧ EntryOut B i l.length e o ∧ P s' ls (fun os => post (o :: os)))
    (post : List (List Byte) → Prop) (h0 : P rcInit ((textLines d).map chomp) post) :
    ∃ os, rcMain K ⟨d, c⟩ = .ok (os.flatMap (· ++ [10#8])) ∧ post os := by
  obtain ⟨B, s', e, hs, _⟩ := rcReadfile_eq hK d.length d c (fun _ => 0#8) 0 (Nat.le_refl _) (by omega)
  rw [Nat.zero_add] at e
  rw [rcMain, e, Res.ok_bind]
  by_cases hz : d = []
  · subst hz
    refine ⟨[], ?_, hnil _ _ h0⟩
    rfl
  · have hpos : 0 < d.length := List.length_pos_iff.mpr hz
    simp only
    rw [rcSplit, if_neg (by omega), if_neg (by simp only [rcBufsize]; omega), Int.toNat_natCast]
    have hs2 : SitsAt (rcPut B d.length [10#8]) 0 (d ++ [10#8]) := by
      rw [sitsAt_append]
      refine ⟨sitsAt_of_get ?_, ?_, True.intro⟩
      · intro t ht
        rw [rcPut, if_neg (by omega)]
        exact sitsAt_get hs t ht
      · simp [rcPut]
    obtain ⟨g1, g2⟩ := linesAt_text d 0 hs2 h13 (by omega)
    rw [Nat.zero_add] at g2
    obtain ⟨es, os, a1, a2, a3⟩ := rcLines_sim (B := rcPut B d.length [10#8]) (total := d.length) P hnil (hstep _) ((textLines d).map chomp) d.length 0 0 rcInit post
      g1 g2 (by simpa using length_textLines d) (by simpa using hcnt)
      (by
        intro l hl
        obtain ⟨x, hx, rfl⟩ := List.mem_map.mp hl
        exact Nat.lt_of_le_of_lt (length_chomp_le x) (hline x hx))
      (by
        intro l hl
        cases d with
        | nil => simp at hpos
        | cons b d =>
          have hb : b ≠ 10#8 := by simpa using h10
          rw [textLines, if_neg hb] at hl
          cases ht : textLines d with
          | nil =>
            rw [ht] at hl
            simp [chomp, hb] at hl
            rw [← hl]
            simp
          | cons x xs =>
            rw [ht] at hl
            simp only [List.map_cons, List.head?_cons, Option.some.injEq] at hl
            rw [chomp_cons (textLines_ne (d := d) x (by rw [ht]; simp))] at hl
            rw [← hl]
            simp)
      (Or.inr rfl) h0
    refine ⟨os, ?_, a3⟩
    simp only
    rw [show (⟨false, false, 0, false⟩ : RcSt) = rcInit from rfl, a1, Res.ok_bind]
    simp only [Res.pure_eq, Res.ok_bind]
    exact rcPrint_fits es _ os 0 _ a2 (fun _ _ => rfl)

end Minilib

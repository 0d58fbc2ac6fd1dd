import Verif.Model.MatchExt2
import Verif.Lemmas.MatchExt
/-
Lemmas for C107: the agreement of match_ext2 with match_ext.
-/

set_option autoImplicit false

namespace Minilib
open Mem Spec

/-- Patterns that mean the same to both engines: none of the characters { } ( ) @ # $, no ',' at the end or in front of a '*' at the end, no negated set, no negated
'*', '+', '%', ',' and "\W", and none of the escapes which only match_ext2 has. -/
structure Core2 (re : List Byte) : Prop where
  chars : ∀ b ∈ re, b ∉ [123#8, 125#8, 40#8, 41#8, 64#8, 35#8, 36#8]
  neg : ∀ u v, re = u ++ 33#8 :: v → v.headD 0#8 ∉ [91#8, 42#8, 43#8, 37#8, 44#8] ∧ v.take 2 ≠ [92#8, 87#8]
  esc : ∀ u v, re = u ++ 92#8 :: v → v.headD 0#8 ∉ [110#8, 116#8, 120#8]
  sep : ∀ u v, re = u ++ 44#8 :: v → v ∉ [[], [42#8]]

theorem Core2.drop {re : List Byte} (h : Core2 re) (k : Nat) : Core2 (re.drop k) :=
  ⟨fun b hb => h.chars b (List.mem_of_mem_drop hb), fun u v e => h.neg (re.take k ++ u) v (by
    rw [List.append_assoc, ← e, List.take_append_drop]), fun u v e => h.esc (re.take k ++ u) v (by
    rw [List.append_assoc, ← e, List.take_append_drop]), fun u v e => h.sep (re.take k ++ u) v (by
    rw [List.append_assoc, ← e, List.take_append_drop])⟩

theorem Core2.tail {c : Byte} {re : List Byte} (h : Core2 (c :: re)) : Core2 re := h.drop 1

theorem Core2.head {re : List Byte} (h : Core2 re) : re.headD 0#8 ≠ 123#8 ∧
    re.headD 0#8 ≠ 125#8 ∧ re.headD 0#8 ≠ 40#8 ∧ re.headD 0#8 ≠ 41#8 ∧ re.headD 0#8 ≠ 64#8 ∧ re.headD 0#8 ≠ 35#8 ∧ re.headD 0#8 ≠ 36#8 := by
  cases re with
  | nil => simp
  | cons c re =>
    have := h.chars c (by simp)
    simp only [List.mem_cons, List.not_mem_nil, or_false, not_or] at this
    simpa only [List.headD_cons] using this

/-- The two engines end alike: a position (not NULL) for an answer that is not 0. -/
def Alike2 (x : Res Ext2Out) (y : Res ExtOut) : Prop :=
  ∃ e q, x = .ok (e, q) ∧ y = .ok (if e = 0 then 0 else 1, q.st, q.calls)

theorem alike2_no (q : Ext2St) : Alike2 (pure (0, q)) (pure (0, q.st, q.calls)) := ⟨0, q, rfl, rfl⟩

theorem alike2_yes {e : Nat} (q : Ext2St) (h : 0 < e) : Alike2 (pure (e, q)) (pure (1, q.st, q.calls)) :=
  ⟨e, q, rfl, by rw [if_neg (by omega)]; rfl⟩

theorem escape2_eq {neg : Bool} {c t : Byte} (h : c ∉ [110#8, 116#8, 120#8]) (hn : neg = true → c ≠ 87#8) :
    escape2 neg c t = escapeClass neg c t := by
  simp only [List.mem_cons, List.not_mem_nil, or_false, not_or] at h
  have h3 : decide (160 ≤ t.toInt) = false := by
    have := t.isLt; rw [decide_eq_false_iff_not, BitVec.toInt_eq_toNat_cond]; split <;> omega
  unfold escape2 escapeClass
  rw [if_neg h.1, if_neg h.2.1, if_neg h.2.2, h3]
  cases neg with
  | false => simp
  | true => rw [if_neg (hn rfl), if_neg (hn rfl)]; simp

section
variable {m : Mem} {pm : Bool} {pc : Option (Nat → Nat → Int)}

theorem ext2StarLoop_alike {re : List Byte} {rp : Nat} (hr : m.IsStr rp re) (hc : Core2 re)
    (ih : ∀ {s : List Byte} {text k : Nat} {q : Ext2St}, m.IsStr text s → 0 < text →
      Alike2 (ext2Loop m pm pc text rp k q) (extLoop m pm pc text rp k q.st q.calls)) (n : Nat) (mp : Option Nat) :
    ∀ {s : List Byte} {text : Nat} {b : Byte} {q : Ext2St}, m.IsStr text (b :: s) → 0 < text →
      Alike2 (ext2StarLoop m pm pc text rp q n mp) (extStarLoop m pm pc text rp q.st q.calls false n mp) := by
  intro s
  induction s with
  | nil =>
    intro text b q ht h0
    rw [extStarLoop, matchExt, ext2StarLoop, ext2]
    obtain ⟨e, q', hx, hy⟩ := ih (k := 0) (q := { q with st := q.st.map fun s => { s with len := 0 } }) ht h0
    rw [hx, hy]
    simp only [Res.ok_bind]
    by_cases he : e = 0
    · subst he
      rw [if_neg (by decide), if_neg (by decide), isStr_first (isStr_cons.1 ht).2.2]
      simp only [Res.ok_bind, List.headD_nil, if_true]
      rw [isStr_first hr]
      simp only [Res.ok_bind]
      have hg : ¬ (re.headD 0#8 = 35#8 ∨ re.headD 0#8 = 36#8) := fun h => h.elim hc.head.2.2.2.2.2.1 hc.head.2.2.2.2.2.2
      rw [if_neg hg, if_neg hg]
      exact alike2_no _
    · rw [if_pos he, if_neg he, if_pos (by decide)]
      exact ⟨e, _, rfl, by rw [if_neg he]; rfl⟩
  | cons c s ihs =>
    intro text b q ht h0
    rw [extStarLoop, matchExt, ext2StarLoop, ext2]
    obtain ⟨e, q', hx, hy⟩ := ih (k := 0) (q := { q with st := q.st.map fun s => { s with len := 0 } }) ht h0
    rw [hx, hy]
    simp only [Res.ok_bind]
    by_cases he : e = 0
    · subst he
      have ht2 := (isStr_cons.1 ht).2.2
      rw [if_neg (by decide), if_neg (by decide), isStr_first ht2]
      simp only [Res.ok_bind, List.headD_cons]
      rw [if_neg (isStr_cons.1 ht2).2.1, if_neg (isStr_cons.1 ht2).2.1]
      exact ihs ht2 (by omega)
    · rw [if_pos he, if_neg he, if_pos (by decide)]
      exact ⟨e, _, rfl, by rw [if_neg he]; rfl⟩

theorem ext2Star_alike {re : List Byte} {rp : Nat} (hr : m.IsStr rp re) (hc : Core2 re)
    (ih : ∀ {s : List Byte} {text k : Nat} {q : Ext2St}, m.IsStr text s → 0 < text →
      Alike2 (ext2Loop m pm pc text rp k q) (extLoop m pm pc text rp k q.st q.calls)) (n : Nat) (mp : Option Nat)
    {s : List Byte} {text : Nat} {b : Byte} {q : Ext2St} (ht : m.IsStr text (b :: s)) (h0 : 0 < text) :
    Alike2 (ext2Star m pm pc text rp q n mp) (extStar m pm pc text rp q.st q.calls false n mp) := by
  rw [ext2Star, extStar, isStr_first hr]
  simp only [Res.ok_bind]
  split
  · rw [textEnd_eq ht]
    simp only [Res.ok_bind]
    split
    · exact alike2_yes ((q.report pm n mp _).say .star) (by omega)
    · exact alike2_yes (q.say .star) h0
  · exact ext2StarLoop_alike hr hc ih n mp ht h0

theorem ext2Step_alike (hpc : ∀ f, pc = some f → ∀ k p (s : List Byte), m.IsStr p s → s ≠ [] → f k p = 0 ∨ f k p = -1 ∨ (0 ≤ f k p ∧ f k p < s.length))
    {k : Nat} (ih : ∀ {re : List Byte}, re.length < k → Core2 re → ∀ {s : List Byte} {text rp n : Nat} {q : Ext2St},
      m.IsStr text s → 0 < text → m.IsStr rp re → Alike2 (ext2Loop m pm pc text rp n q) (extLoop m pm pc text rp n q.st q.calls))
    {re s : List Byte} {text rp n : Nat} {b : Byte} {q : Ext2St} (neg : Bool) (hn : re.length ≤ k)
    (hc : Core2 re) (hneg : neg = true → re.headD 0#8 ∉ [91#8, 42#8, 43#8, 37#8, 44#8] ∧ re.take 2 ≠ [92#8, 87#8])
    (ht : m.IsStr text (b :: s)) (h0 : 0 < text) (hr : m.IsStr rp re) :
    Alike2 (ext2Step m pm pc text rp neg n q b (re.headD 0#8)) (extStep m pm pc text rp 0 neg n q.st q.calls b (re.headD 0#8)) := by
  cases re with
  | nil =>
    rw [extStep, ext2Step]
    simp only [List.headD_nil]
    repeat rw [if_neg (by decide)]
    rw [if_true]
    repeat rw [if_neg (by decide)]
    exact alike2_no _
  | cons c re =>
    have hch := hc.head
    simp only [List.headD_cons, List.length_cons] at hn hch hneg ⊢
    have ht2 := (isStr_cons.1 ht).2.2
    have hr2 := (isStr_cons.1 hr).2.2
    have go : Alike2 (ext2Loop m pm pc (text + 1) (rp + 1) n q) (extLoop m pm pc (text + 1) (rp + 1) n q.st q.calls) :=
      ih (by omega) hc.tail ht2 (by omega) hr2
    rw [ext2Step, extStep]
    simp only [extCount_zero]
    rw [if_neg hch.2.2.2.1, if_neg hch.2.1, if_neg hch.1]
    refine if h63 : c = 63#8 then ?_ else ?_
    · rw [if_pos h63, if_pos h63]; split; exact alike2_no _; exact go
    rw [if_neg h63, if_neg h63, if_neg hch.2.2.2.2.1]
    refine if h91 : c = 91#8 then ?_ else ?_
    · have hf : neg = false := by
        cases neg with
        | false => rfl
        | true => exact absurd (by rw [h91]; decide) (hneg rfl).1
      subst hf
      rw [if_pos h91, if_pos h91]
      rcases classFind_safe (t := b) hr2 with h | ⟨k, hk, h⟩
      · rw [h]; exact alike2_no _
      · rw [h]
        simp only [Res.ok_bind]
        obtain ⟨j, hj, h'⟩ := classEnd_safe (isStr_dropN hr2 hk)
        rw [h']
        simp only [Res.ok_bind]
        have hr3 := isStr_dropN (isStr_dropN hr2 hk) hj
        rw [isStr_first hr3]
        simp only [Res.ok_bind]
        have hc3 := (hc.tail.drop k).drop j
        cases hd : (re.drop k).drop j with
        | nil => exact alike2_no _
        | cons d l =>
          rw [hd] at hr3 hc3
          rw [List.headD_cons, if_neg (isStr_cons.1 hr3).2.1, if_neg (isStr_cons.1 hr3).2.1]
          split
          · exact alike2_no _
          · refine ih ?_ hc3.tail ht2 (by omega) (isStr_cons.1 hr3).2.2
            have := congrArg List.length hd
            simp only [List.length_drop, List.length_cons] at this
            omega
    rw [if_neg h91, if_neg h91, if_neg hch.2.2.1, if_neg hch.2.2.2.2.2.1, if_neg hch.2.2.2.2.2.1, if_neg hch.2.2.2.2.2.2]
    have ampGo : ∀ (rp' : Nat) (re' : List Byte) (n' : Nat), m.IsStr (rp' + 1) re' → Core2 re' → re'.length < k → Alike2
        (match (generalizing := false) pc with
        | none => if neg = true then pure (0, q) else ext2Loop m pm pc (text + 1) (rp' + 1) n' q
        | some f =>
          if f n' text = 0 then (if neg = true then ext2Loop m pm pc (text + 1) (rp' + 1) n' q else pure (0, q))
          else if f n' text = -1 then (if neg = true then pure (0, q) else pure (text, q))
          else if neg = true then pure (0, q)
          else if (text : Int) + f n' text < 0 then .ub
          else ext2Loop m pm pc (((text : Int) + f n' text).toNat + 1) (rp' + 1) n' q)
        (match (generalizing := false) pc with
        | none => if neg = true then pure (0, q.st, q.calls) else extLoop m pm pc (text + 1) (rp' + 1) n' q.st q.calls
        | some f =>
          if f n' text = 0 then (if neg = true then extLoop m pm pc (text + 1) (rp' + 1) n' q.st q.calls else pure (0, q.st, q.calls))
          else if f n' text = -1 then pure (xorNeg neg 1, q.st, q.calls)
          else if neg = true then pure (0, q.st, q.calls)
          else if (text : Int) + f n' text < 0 then .ub
          else extLoop m pm pc (((text : Int) + f n' text).toNat + 1) (rp' + 1) n' q.st q.calls) := by
      intro rp' re' n' hr' hc' hl
      have go' : Alike2 (ext2Loop m pm pc (text + 1) (rp' + 1) n' q) (extLoop m pm pc (text + 1) (rp' + 1) n' q.st q.calls) :=
        ih hl hc' ht2 (by omega) hr'
      cases hpc' : pc with
      | none =>
        subst hpc'
        simp only
        split
        · exact alike2_no _
        · exact go'
      | some f =>
        subst hpc'
        simp only
        have hf := hpc f rfl n' text _ ht (by simp)
        split
        · split
          · exact go'
          · exact alike2_no _
        · split
          · cases neg
            · exact alike2_yes q h0
            · exact alike2_no _
          · rename_i v0 v1
            obtain ⟨j, hj⟩ : ∃ j : Nat, f n' text = j := ⟨(f n' text).toNat, by omega⟩
            rw [hj] at hf ⊢
            split
            · exact alike2_no _
            · rw [if_neg (by omega), if_neg (by omega)]
              have hlen : j + 1 ≤ (b :: s).length := by omega
              have ht3 := isStr_dropN ht hlen
              rw [show ((text : Int) + (j : Int)).toNat + 1 = text + (j + 1) by omega]
              exact ih hl hc' ht3 (by omega) hr'
    refine if h38 : c = 38#8 then ?_ else ?_
    · rw [if_pos h38, if_pos h38]
      unfold extDigit
      rw [isStr_first hr2]
      simp only [Res.ok_bind]
      split
      · cases re with
        | nil => rename_i h; simp at h
        | cons d re =>
          simp only [Res.pure_eq, Res.ok_bind]
          exact ampGo _ re _ (isStr_cons.1 hr2).2.2 hc.tail.tail (by simp only [List.length_cons] at hn; omega)
      · simp only [Res.pure_eq, Res.ok_bind]
        exact ampGo _ re _ hr2 hc.tail (by omega)
    rw [if_neg h38, if_neg h38]
    have hf : c ∈ [91#8, 42#8, 43#8, 37#8, 44#8] → neg = false := fun h => by
      cases neg with
      | false => rfl
      | true => exact absurd h (hneg rfl).1
    have plusGo : ∀ (rp' : Nat) (re' : List Byte) n mp, m.IsStr rp' re' → Core2 re' → re'.length < k → Alike2 (do
        let t ← m.load (text + 1)
        if t = 0#8 then (if false = true then pure (text + 1, q) else pure (0, q)) else ext2Star m pm pc (text + 1) rp' q n mp) (do
        let t ← m.load (text + 1)
        if t = 0#8 then pure (xorNeg false 0, q.st, q.calls) else extStar m pm pc (text + 1) rp' q.st q.calls false n mp) := by
      intro rp' re' n mp hr' hc' hl
      rw [isStr_first ht2]
      simp only [Res.ok_bind]
      cases s with
      | nil => exact alike2_no _
      | cons d s =>
        rw [List.headD_cons, if_neg (isStr_cons.1 ht2).2.1, if_neg (isStr_cons.1 ht2).2.1]
        exact ext2Star_alike hr' hc' (ih hl hc' · · hr') n mp ht2 (by omega)
    refine if h37 : c = 37#8 then ?_ else ?_
    · rw [if_pos h37, if_pos h37]
      have := hf (by rw [h37]; decide)
      subst this
      unfold extDigit
      rw [isStr_first hr2]
      simp only [Res.ok_bind]
      split
      · cases re with
        | nil => rename_i h; simp at h
        | cons d re =>
          simp only [Res.pure_eq, Res.ok_bind]
          exact plusGo _ re _ _ (isStr_cons.1 hr2).2.2 hc.tail.tail (by simp only [List.length_cons] at hn; omega)
      · simp only [Res.pure_eq, Res.ok_bind]
        exact plusGo _ re _ _ hr2 hc.tail (by omega)
    rw [if_neg h37, if_neg h37]
    refine if h43 : c = 43#8 then ?_ else ?_
    · rw [if_pos h43, if_pos h43]
      have := hf (by rw [h43]; decide)
      subst this
      exact plusGo _ re _ _ hr2 hc.tail (by omega)
    rw [if_neg h43, if_neg h43]
    refine if h42 : c = 42#8 then ?_ else ?_
    · rw [if_pos h42, if_pos h42]
      have := hf (by rw [h42]; decide)
      subst this
      exact ext2Star_alike hr2 hc.tail (ih (by omega) hc.tail · · hr2) n none ht h0
    rw [if_neg h42, if_neg h42]
    refine if h92 : c = 92#8 then ?_ else ?_
    · rw [if_pos h92, if_pos h92, isStr_first hr2]
      simp only [Res.ok_bind]
      have hesc := hc.esc [] re (by rw [h92]; rfl)
      have hnW : neg = true → re.headD 0#8 ≠ 87#8 := by
        intro h e
        cases re with
        | nil => simp at e
        | cons d re => simp only [List.headD_cons] at e; exact (hneg h).2 (by rw [h92, e]; rfl)
      rw [escape2_eq hesc hnW]
      cases re with
      | nil =>
        simp only [List.headD_nil]
        have : escapeClass neg 0#8 b = none := by simp [escapeClass]
        rw [this]
        exact alike2_no _
      | cons d re =>
        simp only [List.headD_cons]
        have go2 : Alike2 (ext2Loop m pm pc (text + 1) (rp + 2) n q) (extLoop m pm pc (text + 1) (rp + 2) n q.st q.calls) :=
          ih (by simp only [List.length_cons] at hn; omega) hc.tail.tail ht2 (by omega) (isStr_cons.1 hr2).2.2
        cases escapeClass neg d b with
        | some v => cases v; exact alike2_no _; exact go2
        | none =>
          show Alike2 (if d = 0#8 then pure (0, q) else if (neg ^^ decide (d ≠ b)) then pure (0, q)
            else ext2Loop m pm pc (text + 1) (rp + 2) n q)
            (if d = 0#8 then pure (0, q.st, q.calls) else if (neg ^^ decide (d ≠ b)) then pure (0, q.st, q.calls)
              else extLoop m pm pc (text + 1) (rp + 2) n q.st q.calls)
          split
          · exact alike2_no _
          · split
            · exact alike2_no _
            · exact go2
    rw [if_neg h92, if_neg h92]
    split
    · exact alike2_no _
    · split; exact alike2_no _; exact go

theorem ext2End_alike {text rp : Nat} {re : List Byte} {q : Ext2St} (hr : m.IsStr rp re) (hc : Core2 re) (h0 : 0 < text) :
    Alike2 (ext2End m text rp q) (do let r ← matchEnd m rp; pure (r, q.st, q.calls)) := by
  have hg : ∀ {l : List Byte}, Core2 l → ¬ (l.headD 0#8 = 35#8 ∨ l.headD 0#8 = 36#8) :=
    fun h x => x.elim h.head.2.2.2.2.2.1 h.head.2.2.2.2.2.2
  unfold ext2End matchEnd
  rw [isStr_first hr]
  simp only [Res.ok_bind]
  by_cases h44 : re.headD 0#8 = 44#8
  · cases re with
    | nil => simp at h44
    | cons c re =>
      simp only [List.headD_cons] at h44
      subst h44
      have hs := hc.sep [] re rfl
      have hr2 := (isStr_cons.1 hr).2.2
      rw [if_pos (show (44#8 :: re).headD 0#8 = 44#8 from rfl), if_neg (hg hc), isStr_first hr]
      simp only [Res.ok_bind]
      rw [if_neg (show ¬ (44#8 :: re).headD 0#8 = 0#8 by simp), if_neg (show ¬ (44#8 :: re).headD 0#8 = 42#8 by simp), isStr_first hr2]
      simp only [Res.ok_bind]
      rw [if_neg (hg hc.tail)]
      cases re with
      | nil => simp at hs
      | cons d re =>
        rw [if_neg (show ¬ (d :: re).headD 0#8 = 0#8 from (isStr_cons.1 hr2).2.1)]
        split
        · rename_i h42
          rw [List.headD_cons] at h42
          subst h42
          rw [isStr_first (isStr_cons.1 hr2).2.2]
          simp only [Res.ok_bind]
          cases re with
          | nil => simp at hs
          | cons e re =>
            rw [if_neg (show ¬ (e :: re).headD 0#8 = 0#8 from (isStr_cons.1 (isStr_cons.1 hr2).2.2).2.1)]
            exact alike2_no q
        · exact alike2_no q
  rw [if_neg h44, if_neg (hg hc), isStr_first hr]
  simp only [Res.ok_bind]
  rw [if_neg (hg hc)]
  split
  · exact alike2_yes q h0
  · split
    · cases re with
      | nil => contradiction
      | cons c re =>
        rw [isStr_first (isStr_cons.1 hr).2.2]
        simp only [Res.ok_bind]
        split
        · exact alike2_yes q h0
        · exact alike2_no q
    · exact alike2_no q

theorem ext2Loop_alike (hpc : ∀ f, pc = some f → ∀ k p (s : List Byte), m.IsStr p s → s ≠ [] → f k p = 0 ∨ f k p = -1 ∨ (0 ≤ f k p ∧ f k p < s.length)) :
    ∀ (k : Nat) {re : List Byte}, re.length < k → Core2 re → ∀ {s : List Byte} {text rp n : Nat} {q : Ext2St},
    m.IsStr text s → 0 < text → m.IsStr rp re → Alike2 (ext2Loop m pm pc text rp n q) (extLoop m pm pc text rp n q.st q.calls)
  | k + 1, re, hn, hc, s, text, rp, n, q, ht, h0, hr => by
    have hch := hc.head
    cases s with
    | nil =>
      rw [extLoop_nil ht, ext2Loop, isStr_first ht]
      simp only [Res.ok_bind, List.headD_nil, if_true]
      exact ext2End_alike hr hc h0
    | cons b s =>
      rw [ext2Loop, load_some (isStr_cons.1 ht).1]
      simp only [Res.ok_bind]
      rw [if_neg (isStr_cons.1 ht).2.1, isStr_first hr]
      simp only [Res.ok_bind]
      by_cases h33 : re.headD 0#8 = 33#8
      · cases re with
        | nil => simp at h33
        | cons c re =>
          simp only [List.headD_cons] at h33
          subst h33
          have hch' := hc.tail.head
          simp only [List.headD_cons, if_true]
          rw [isStr_first (isStr_cons.1 hr).2.2]
          simp only [Res.ok_bind]
          have h44 : re.headD 0#8 ≠ 44#8 := fun e => (hc.neg [] re rfl).1 (by rw [e]; decide)
          rw [extLoop_neg ht hr hch'.2.1 hch'.1 h44]
          exact ext2Step_alike hpc (ext2Loop_alike hpc k) true (by simp only [List.length_cons] at hn; omega) hc.tail
            (fun _ => hc.neg [] re rfl) ht h0 (isStr_cons.1 hr).2.2
      · rw [if_neg h33]
        by_cases h44 : re.headD 0#8 = 44#8
        · cases re with
          | nil => simp at h44
          | cons c re =>
            simp only [List.headD_cons] at h44
            subst h44
            simp only [List.headD_cons, if_true]
            rw [isStr_first (isStr_cons.1 hr).2.2]
            simp only [Res.ok_bind]
            rw [extLoop_sep ht hr]
            exact ext2Step_alike hpc (ext2Loop_alike hpc k) false (by simp only [List.length_cons] at hn; omega) hc.tail
              (by intro h; cases h) ht h0 (isStr_cons.1 hr).2.2
        rw [if_neg h44, extLoop_plain ht hr h33 hch.2.1 hch.1 h44]
        exact ext2Step_alike hpc (ext2Loop_alike hpc k) false (by omega) hc (by intro h; cases h) ht h0 hr

end

end Minilib

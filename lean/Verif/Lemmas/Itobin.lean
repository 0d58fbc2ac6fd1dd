import Verif.Lemmas.PrintfConv
import Verif.Lemmas.Radix
/-
The text that _itobin writes for any group size, and its length.
-/

set_option autoImplicit false

namespace Minilib
open Mem Spec

/-- The digit for the top bit, and the new `prec`. -/
def binBit (i : BitVec 32) (prec : Int) : List Byte × Int :=
  if i &&& 0x80000000#32 ≠ 0#32 then ([49#8], 0)
  else if prec = 0 then ([48#8], 0)
  else ([], prec + 1)

/-- The text of `n` passes of the loop. -/
def binText (groups : Int) : Nat → BitVec 32 → Int → Int → List Byte
  | 0, _, _, _ => []
  | n + 1, i, prec, c =>
    if (binBit i prec).2 = 0 ∧ c + 1 ≥ groups then
      (binBit i prec).1 ++ 32#8 :: binText groups n (i <<< 1) (binBit i prec).2 0
    else (binBit i prec).1 ++ binText groups n (i <<< 1) (binBit i prec).2 (c + 1)

theorem itobinBit_text {m : Mem} {i : BitVec 32} {buf p : Nat} {prec : Int} (h1 : INT_MIN ≤ prec) (h2 : prec < INT_MAX)
    (hm : m.Mapped (buf + p) (binBit i prec).1.length) :
    itobinBit m i buf p prec
      = .ok (m.write (buf + p) (binBit i prec).1, p + (binBit i prec).1.length, (binBit i prec).2) := by
  unfold itobinBit
  by_cases hb : i &&& 0x80000000#32 ≠ 0#32
  · have e : binBit i prec = ([49#8], 0) := if_pos hb
    rw [e] at hm ⊢
    obtain ⟨a1, _⟩ := store_step (n := 0) hm 49#8
    rw [if_pos hb, a1]
    simp [write_singleton]
  · by_cases h0 : prec = 0
    · have e : binBit i prec = ([48#8], 0) := by unfold binBit; rw [if_neg hb, if_pos h0]
      rw [e] at hm ⊢
      obtain ⟨a1, _⟩ := store_step (n := 0) hm 48#8
      rw [if_neg hb, if_pos h0, a1]
      simp [write_singleton, h0]
    · have e : binBit i prec = ([], prec + 1) := by unfold binBit; rw [if_neg hb, if_neg h0]
      rw [e, if_neg hb, if_neg h0, ckInt_ok (by omega) (by omega)]
      simp

theorem binBit_le (i : BitVec 32) (prec : Int) (M : Int) (h : prec + 1 ≤ M) (h0 : 0 ≤ M) : (binBit i prec).2 ≤ M := by
  unfold binBit; split
  · exact h0
  · split
    · exact h0
    · exact h

theorem binBit_ge (i : BitVec 32) (prec : Int) (h : INT_MIN ≤ prec) : INT_MIN ≤ (binBit i prec).2 := by
  unfold binBit; split
  · show INT_MIN ≤ 0; omega
  · split
    · show INT_MIN ≤ 0; omega
    · show INT_MIN ≤ prec + 1; omega

theorem itobinLoop_text {groups : Int} {buf : Nat} : ∀ (n : Nat) (m : Mem) (i : BitVec 32) (p : Nat) (prec c : Int),
    INT_MIN ≤ prec → prec + n ≤ INT_MAX → (n : Int) ≤ 32 → m.Mapped (buf + p) (binText groups n i prec c).length →
    itobinLoop groups buf n m i p prec c
      = .ok (m.write (buf + p) (binText groups n i prec c), p + (binText groups n i prec c).length) := by
  intro n
  induction n with
  | zero => intro m i p prec c _ _ _ _; simp [itobinLoop, binText]
  | succ n ih =>
    intro m i p prec c h1 h2 h3 hm
    rw [itobinLoop]
    have hge := binBit_ge i prec h1
    have hle : (binBit i prec).2 + n ≤ INT_MAX := by
      have := binBit_le i prec (INT_MAX - n) (by push_cast at h2; omega) (by omega)
      omega
    unfold binText at hm ⊢
    by_cases hc : (binBit i prec).2 = 0 ∧ c + 1 ≥ groups
    · rw [if_pos hc] at hm ⊢
      have hm1 : m.Mapped (buf + p) (binBit i prec).1.length := hm.mono (by simp)
      rw [itobinBit_text h1 (by push_cast at h2; omega) hm1]
      simp only [Res.ok_bind]
      rw [if_pos hc]
      have hm2 : (m.write (buf + p) (binBit i prec).1).Mapped (buf + (p + (binBit i prec).1.length))
          ((binText groups n (i <<< 1) (binBit i prec).2 0).length + 1) := by
        intro j hj
        have := (hm.write (buf + p) (binBit i prec).1) ((binBit i prec).1.length + j) (by simp; omega)
        rwa [← Nat.add_assoc, show buf + p + (binBit i prec).1.length = buf + (p + (binBit i prec).1.length) by omega] at this
      obtain ⟨a1, b1⟩ := store_step hm2 32#8
      rw [a1]
      simp only [Res.ok_bind]
      rw [ih _ _ _ _ _ hge hle (by push_cast at h3; omega) b1, write_append, write_cons]
      simp only [List.length_append, List.length_cons]
      rw [show buf + p + (binBit i prec).1.length = buf + (p + (binBit i prec).1.length) by omega,
        show buf + (p + (binBit i prec).1.length) + 1 = buf + (p + (binBit i prec).1.length + 1) by omega]
      congr 2; omega
    · rw [if_neg hc] at hm ⊢
      have hm1 : m.Mapped (buf + p) (binBit i prec).1.length := hm.mono (by simp)
      rw [itobinBit_text h1 (by push_cast at h2; omega) hm1]
      simp only [Res.ok_bind]
      rw [if_neg hc]
      have hm2 : (m.write (buf + p) (binBit i prec).1).Mapped (buf + (p + (binBit i prec).1.length))
          ((binText groups n (i <<< 1) (binBit i prec).2 (c + 1)).length) := by
        intro j hj
        have := (hm.write (buf + p) (binBit i prec).1) ((binBit i prec).1.length + j) (by simp; omega)
        rwa [← Nat.add_assoc, show buf + p + (binBit i prec).1.length = buf + (p + (binBit i prec).1.length) by omega] at this
      rw [ih _ _ _ _ _ hge hle (by push_cast at h3; omega) hm2, write_append]
      simp only [List.length_append]
      rw [show buf + p + (binBit i prec).1.length = buf + (p + (binBit i prec).1.length) by omega]
      congr 2; omega

/-- The text of `_itobin`. -/
def binOut (i : BitVec 32) (prec groups : Int) : List Byte :=
  if binText groups 32 i (prec - 32) 0 = [] then [48#8] else binText groups 32 i (prec - 32) 0

/-- `_itobin` writes this text, for all arguments that do not overflow. -/
theorem itobin_text {i : BitVec 32} {prec groups : Int} (h1 : INT_MIN + 32 ≤ prec) (h2 : prec ≤ INT_MAX) :
    Converts (fun m d => itobin_ m i d prec groups) (binOut i prec groups) := by
  intro m d hm
  show itobin_ m i d prec groups = _
  unfold itobin_
  rw [ckInt_ok (by omega) (by omega)]
  simp only [Res.ok_bind]
  unfold binOut at hm ⊢
  by_cases h0 : binText groups 32 i (prec - 32) 0 = []
  · rw [if_pos h0] at hm ⊢
    have := itobinLoop_text (groups := groups) (buf := d) 32 m i 0 (prec - 32) 0 (by omega) (by omega) (by omega)
      (by rw [h0]; exact hm.mono (by simp))
    rw [this, h0]
    obtain ⟨a1, b1⟩ := store_step hm 48#8
    obtain ⟨a2, _⟩ := store_step (n := 0) b1 0#8
    simp only [Res.ok_bind, write_nil, List.length_nil, Nat.add_zero, if_true]
    rw [a1]
    simp only [Res.ok_bind]
    rw [a2]
    simp [write_cons]
  · rw [if_neg h0] at hm ⊢
    have := itobinLoop_text (groups := groups) (buf := d) 32 m i 0 (prec - 32) 0 (by omega) (by omega) (by omega)
      (hm.mono (by simp))
    rw [this]
    have hl := List.length_pos_iff.2 h0
    simp only [Res.ok_bind, Nat.zero_add, Nat.add_zero]
    rw [if_neg (by omega)]
    obtain ⟨c, hc⟩ := (hm.write d (binText groups 32 i (prec - 32) 0)) (binText groups 32 i (prec - 32) 0).length (by omega)
    rw [store_some hc]
    simp [write_append, write_singleton]

theorem binText_zero_length {g : Nat} (hg : 1 ≤ g) : ∀ (n : Nat) (i : BitVec 32) (c : Nat),
    (binText (g : Int) n i 0 (c : Int)).length ≤ n + (n + min c (g - 1)) / g := by
  intro n
  induction n with
  | zero => intro i c; simp [binText]
  | succ n ih =>
    intro i c
    have hb : (binBit i 0).1.length = 1 ∧ (binBit i 0).2 = 0 := by
      unfold binBit; split <;> simp
    unfold binText
    rw [hb.2]
    by_cases h : (c : Int) + 1 ≥ g
    · rw [if_pos ⟨rfl, h⟩]
      have := ih (i <<< 1) 0
      simp only [List.length_append, List.length_cons, hb.1]
      rw [show min c (g - 1) = g - 1 by omega, show n + 1 + (g - 1) = n + g by omega, Nat.add_div_right _ (by omega)]
      simp only [Nat.zero_min, Nat.add_zero, Int.natCast_zero] at this
      omega
    · rw [if_neg (by omega)]
      have := ih (i <<< 1) (c + 1)
      simp only [List.length_append, hb.1]
      rw [show min (c + 1) (g - 1) = c + 1 by omega] at this
      rw [show min c (g - 1) = c by omega, show n + 1 + c = n + (c + 1) by omega]
      push_cast at this
      omega

theorem ceil_le {a b g c : Nat} (hg : 1 ≤ g) (h : a ≤ b) : a + (a + min c (g - 1)) / g ≤ b + b / g + 1 := by
  have h1 := Nat.div_le_div_right (c := g) (show a + min c (g - 1) ≤ b + g by omega)
  rw [Nat.add_div_right _ (by omega)] at h1
  omega

/-- The number of characters while leading zeros are skipped. -/
theorem binText_length {g : Nat} (hg : 1 ≤ g) : ∀ (n : Nat), n ≤ 32 → ∀ (i : BitVec 32) (v : Nat) (prec : Int) (c : Nat) (K : Nat),
    v < 2 ^ n → i.toNat = v * 2 ^ (32 - n) → nd 2 v ≤ K → (prec ≤ 0 → (n : Int) + prec ≤ K) →
    (binText (g : Int) n i prec (c : Int)).length ≤ K + K / g + 1 := by
  intro n
  induction n with
  | zero => intro _ i v prec c K _ _ _ _; simp [binText]
  | succ n ih =>
    intro hn i v prec c K hv hi hK hp
    by_cases hprec : prec = 0
    · subst hprec
      have h1 := binText_zero_length hg (n + 1) i c
      have h2 : n + 1 ≤ K := by have := hp (by omega); push_cast at this; omega
      have h3 := ceil_le (c := c) hg h2
      omega
    · obtain ⟨hbit, hnext⟩ := bin_step (by omega) hv hi
      by_cases h : 2 ^ n ≤ v
      · have hW := nd_big (b := 2) (by omega) h hv
        have e : binText (g : Int) (n + 1) i prec c = binText (g : Int) (n + 1) i 0 c := by
          unfold binText
          have e1 : ∀ p, binBit i p = ([49#8], 0) := fun p => if_pos (hbit.2 h)
          rw [e1, e1]
        rw [e]
        have h1 := binText_zero_length hg (n + 1) i c
        have h3 := ceil_le (c := c) hg (show n + 1 ≤ K by omega)
        omega
      · have e1 : binBit i prec = ([], prec + 1) := by
          unfold binBit
          rw [if_neg (fun h' => h (hbit.1 h')), if_neg hprec]
        have hv' : v % 2 ^ n = v := Nat.mod_eq_of_lt (by omega)
        rw [hv'] at hnext
        unfold binText
        rw [e1]
        simp only [List.nil_append]
        by_cases hc : prec + 1 = 0 ∧ (c : Int) + 1 ≥ g
        · rw [if_pos hc, hc.1]
          have h2 : n ≤ K := by
            have := hp (by omega)
            push_cast at this
            omega
          have h1 := binText_zero_length hg n (i <<< 1) 0
          have h3 := Nat.div_le_div_right (c := g) h2
          simp only [Nat.zero_min, Nat.add_zero, Int.natCast_zero] at h1
          simp only [List.length_cons]
          omega
        · rw [if_neg hc]
          exact ih (by omega) _ v _ (c + 1) K (by omega) hnext hK (by push_cast at hp ⊢; omega)

/-- The length of the text of `_itobin`. -/
theorem binOut_length {i : BitVec 32} {g w K : Nat} (hg : 1 ≤ g) (hK : nd 2 i.toNat ≤ K) (hw : w ≤ 32 → w ≤ K) :
    (binOut i (w : Int) (g : Int)).length ≤ K + K / g + 1 := by
  unfold binOut
  split
  · simp
  · exact binText_length hg 32 (by omega) i i.toNat _ 0 K (by have := i.isLt; omega) (by simp) hK (by push_cast; omega)

theorem binText_filter (g g' : Int) : ∀ (n : Nat) (i : BitVec 32) (prec c c' : Int),
    (binText g n i prec c).filter (· ≠ 32#8) = (binText g' n i prec c').filter (· ≠ 32#8) := by
  intro n
  induction n with
  | zero => intro i prec c c'; rfl
  | succ n ih =>
    intro i prec c c'
    unfold binText
    split <;> split <;> simp only [List.filter_append, List.filter_cons, ne_eq, not_true_eq_false, decide_false,
      Bool.false_eq_true, if_false] <;> congr 1 <;> exact ih _ _ _ _

end Minilib

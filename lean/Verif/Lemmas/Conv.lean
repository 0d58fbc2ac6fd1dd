import Verif.Lemmas.ConvBase
/-
Lemmas about the conversion loops, continued.
-/

set_option autoImplicit false

namespace Minilib
open Mem Spec

theorem uitodecLoop_digit {lim trail : Byte} {buf k : Nat} (hk : k < 9) {m : Mem} {p i : Nat}
    {prec : Int} {tr : Bool} (h1 : 10 ^ k ≤ i) (hi : i < 10 ^ (k + 1))
    (hm : m.Mapped (buf + p) (group lim (dtxt (fixDigits 10 (k + 1) i))).length) :
    uitodecLoop lim trail buf (10 ^ k :: decTable k) m p i prec tr
      = .ok (m.write (buf + p) (group lim (dtxt (fixDigits 10 (k + 1) i))),
          p + (group lim (dtxt (fixDigits 10 (k + 1) i))).length) := by
  have hq : i / 10 ^ k < 10 := by
    rw [Nat.div_lt_iff_lt_mul (Nat.pow_pos (by omega))]; rw [Nat.pow_succ] at hi; omega
  simp only [fixDigits, dtxt_cons, group, Nat.mod_eq_of_lt hq] at hm ⊢
  obtain ⟨hs, hm'⟩ := store_step hm (digitChar false (i / 10 ^ k))
  have hmod := @fixDigits_mod 10 k i k (le_refl _)
  have := @uitodecLoop_all lim trail buf k (by omega) (m.upd (buf + p) (digitChar false (i / 10 ^ k)))
    (p + 1) (i % 10 ^ k) (Nat.mod_lt _ (Nat.pow_pos (by omega))) (by rw [hmod]; exact hm')
  rw [hmod] at this
  rw [uitodecLoop, if_neg (pow_ne k), uitodecDigit_pow (by omega) hi, if_pos h1]
  simp only [← digitChar_lt hq, hs, Res.ok_bind, this, write_cons, List.length_cons]
  rw [show buf + (p + 1) = buf + p + 1 by omega]
  simp; omega

/-- What `uitodec` writes for the number `i` with width `w`, before the special case for "nothing
written". -/
def padOut (lim trail : Byte) (w : Int) (i : Nat) : List Byte :=
  if w < nd 10 i then group lim (dtxt (digits0 10 i))
  else sep lim (List.replicate (w.toNat - nd 10 i) trail ++ dtxt (digits0 10 i))

theorem uitodecLoop_pad {lim trail : Byte} {buf k : Nat} (hk : k ≤ 9) {w : Int} (hw : w ≤ k)
    (hmin : INT_MIN + 9 ≤ w) : ∀ {m : Mem} {p i : Nat}, i < 10 ^ k →
      m.Mapped (buf + p) (padOut lim trail w i).length →
      uitodecLoop lim trail buf (decTable k) m p i (w - k) true
        = .ok (m.write (buf + p) (padOut lim trail w i), p + (padOut lim trail w i).length) := by
  induction k generalizing w with
  | zero =>
    intro m p i hi _
    have h0 : i = 0 := by simpa using hi
    subst h0
    have hw' : w.toNat = 0 := by omega
    have : padOut lim trail w 0 = [] := by
      unfold padOut; split <;> simp [digits0, group, sep, hw']
    rw [this]
    simp [decTable, uitodecLoop]
  | succ k ih =>
    intro m p i hi hm
    rcases Int.lt_or_eq_of_le hw with hw1 | hw1
    · -- no character yet
      have hskip : uitodecLoop lim trail buf (decTable (k + 1)) m p i (w - (k + 1 : Nat)) true
          = uitodecLoop lim trail buf (10 ^ k :: decTable k) m p i (w - (k + 1 : Nat)) true := by
        rw [show decTable (k + 1) = (if (k + 1) % 3 = 0 then [0] else []) ++ 10 ^ k :: decTable k from rfl]
        split
        · rw [List.singleton_append, uitodecLoop, if_pos rfl, if_neg (by omega)]
        · rw [List.nil_append]
      rw [hskip]
      by_cases h1 : 10 ^ k ≤ i
      · have hd := digits0_big (by omega) h1 hi
        have hn := nd_big (by omega) h1 hi
        have ho : padOut lim trail w i = group lim (dtxt (fixDigits 10 (k + 1) i)) := by
          unfold padOut; rw [if_pos (by rw [hn]; omega), hd]
        rw [ho] at hm ⊢
        exact uitodecLoop_digit (by omega) h1 hi hm
      · rw [uitodecLoop, if_neg (pow_ne k), uitodecDigit_pow (by omega) hi, if_neg h1]
        simp only
        rw [if_neg (by omega), ckInt_ok (by omega) (by omega)]
        simp only [Res.ok_bind]
        rw [show w - ((k + 1 : Nat) : Int) + 1 = w - k by omega]
        exact ih (by omega) (by omega) hmin (by omega) hm
    · -- padding or digits are written
      subst hw1
      have hdig : ∀ (m : Mem) (p : Nat),
          m.Mapped (buf + p) (group lim (List.replicate (k + 1 - nd 10 i) trail ++ dtxt (digits0 10 i))).length →
          uitodecLoop lim trail buf (10 ^ k :: decTable k) m p i 0 true
          = .ok (m.write (buf + p) (group lim (List.replicate (k + 1 - nd 10 i) trail ++ dtxt (digits0 10 i))),
              p + (group lim (List.replicate (k + 1 - nd 10 i) trail ++ dtxt (digits0 10 i))).length) := by
        intro m p hm
        by_cases h1 : 10 ^ k ≤ i
        · have hd := digits0_big (by omega) h1 hi
          have hn := nd_big (by omega) h1 hi
          simp only [hd, hn, Nat.sub_self, List.replicate_zero, List.nil_append] at hm ⊢
          exact uitodecLoop_digit (by omega) h1 hi hm
        · have hn := @nd_le 10 k i (by omega) (by omega)
          rw [show k + 1 - nd 10 i = (k - nd 10 i) + 1 by omega, List.replicate_succ, List.cons_append,
            group] at hm ⊢
          obtain ⟨hs, hm'⟩ := store_step hm trail
          have ho : padOut lim trail k i
              = sep lim (List.replicate (k - nd 10 i) trail ++ dtxt (digits0 10 i)) := by
            unfold padOut; rw [if_neg (by omega)]; simp
          have := @ih (by omega) k (by omega) (by omega) (m.upd (buf + p) trail) (p + 1) i (by omega)
            (by rw [ho]; exact hm')
          rw [Int.sub_self, ho] at this
          rw [uitodecLoop, if_neg (pow_ne k), uitodecDigit_pow (by omega) hi, if_neg h1]
          simp only [if_true, hs, Res.ok_bind, this, write_cons, List.length_cons]
          rw [show buf + (p + 1) = buf + p + 1 by omega]
          simp; omega
      have hn := @nd_le 10 (k + 1) i (by omega) hi
      have ho : padOut lim trail (k + 1 : Nat) i
          = sep lim (List.replicate (k + 1 - nd 10 i) trail ++ dtxt (digits0 10 i)) := by
        unfold padOut; rw [if_neg (by omega)]; simp
      have hlen : (List.replicate (k + 1 - nd 10 i) trail ++ dtxt (digits0 10 i)).length = k + 1 := by
        simp [digits0_length]; omega
      rw [ho] at hm ⊢
      generalize List.replicate (k + 1 - nd 10 i) trail ++ dtxt (digits0 10 i) = L at hm hdig hlen ⊢
      rw [Int.sub_self]
      match L, hlen with
      | x :: L, hlen =>
      simp only [List.length_cons] at hlen
      simp only [group] at hdig
      simp only [sep, hlen] at hm ⊢
      by_cases h3 : (k + 1) % 3 = 0
      · by_cases hl : lim ≠ 0#8
        · simp only [decTable, h3, if_true, hl, and_self, not_false_eq_true, ne_eq,
            List.singleton_append] at hm ⊢
          obtain ⟨hs, hm'⟩ := store_step hm lim
          rw [uitodecLoop, if_pos rfl, if_pos ⟨hl, rfl⟩, hs]
          simp only [Res.ok_bind]
          rw [hdig _ _ hm', write_cons _ _ lim]
          rw [show buf + (p + 1) = buf + p + 1 by omega]
          simp; omega
        · simp only [decTable, h3, if_true, hl, false_and, if_false, List.nil_append,
            List.singleton_append] at hm ⊢
          rw [uitodecLoop, if_pos rfl, if_neg (by tauto), hdig _ _ hm]
      · simp only [decTable, h3, and_false, if_false, List.nil_append] at hm ⊢
        exact hdig _ _ hm

/-- With a positive counter nothing but the digits is written. -/
theorem uitodecLoop_wide {lim trail : Byte} {buf k : Nat} (hk : k ≤ 9) {prec : Int} (hw : 0 < prec)
    (hmax : prec + k ≤ INT_MAX) : ∀ {m : Mem} {p i : Nat}, i < 10 ^ k →
      m.Mapped (buf + p) (group lim (dtxt (digits0 10 i))).length →
      uitodecLoop lim trail buf (decTable k) m p i prec true
        = .ok (m.write (buf + p) (group lim (dtxt (digits0 10 i))),
            p + (group lim (dtxt (digits0 10 i))).length) := by
  induction k generalizing prec with
  | zero =>
    intro m p i hi _
    have h0 : i = 0 := by simpa using hi
    subst h0
    simp [decTable, uitodecLoop, digits0, group]
  | succ k ih =>
    intro m p i hi hm
    have hskip : uitodecLoop lim trail buf (decTable (k + 1)) m p i prec true
        = uitodecLoop lim trail buf (10 ^ k :: decTable k) m p i prec true := by
      rw [show decTable (k + 1) = (if (k + 1) % 3 = 0 then [0] else []) ++ 10 ^ k :: decTable k from rfl]
      split
      · rw [List.singleton_append, uitodecLoop, if_pos rfl, if_neg (by omega)]
      · rw [List.nil_append]
    rw [hskip]
    by_cases h1 : 10 ^ k ≤ i
    · rw [digits0_big (by omega) h1 hi] at hm ⊢
      exact uitodecLoop_digit (by omega) h1 hi hm
    · rw [uitodecLoop, if_neg (pow_ne k), uitodecDigit_pow (by omega) hi, if_neg h1]
      simp only
      rw [if_neg (by omega), ckInt_ok (by omega) (by omega)]
      simp only [Res.ok_bind]
      exact ih (by omega) (by omega) (by omega) (by omega) hm

theorem upd_write_ne_nil (m : Mem) (p : Nat) (b : Byte) {l : List Byte} (h : l ≠ []) :
    (m.upd p b).write p l = m.write p l := by
  cases l with
  | nil => exact absurd rfl h
  | cons c l => exact upd_write_head m p b c l

/-- The end of `uitodec` after a loop that wrote `out ≠ []`. -/
theorem uitodecEnd_some {m : Mem} {buf : Nat} {out : List Byte} (h : out ≠ [])
    (hm : m.Mapped buf (out.length + 1)) :
    uitodecEnd buf (m.write buf out, out.length) = .ok (m.write buf (out ++ [0#8]), out.length) := by
  have h0 : out.length ≠ 0 := by simpa using h
  unfold uitodecEnd
  obtain ⟨c, hc⟩ := (hm.write buf out) out.length (by omega)
  simp only [h0, if_false, store_some hc, Res.ok_bind, Res.pure_eq]
  rw [write_append, write_singleton]

theorem uitodecEnd_none {m : Mem} {buf : Nat} (hm : m.Mapped buf 2) :
    uitodecEnd buf (m, 0) = .ok (m.write buf [48#8, 0#8], 1) := by
  obtain ⟨hs, hm'⟩ := store_step hm 48#8
  obtain ⟨hs', _⟩ := store_step hm' 0#8
  simp [uitodecEnd, hs, hs', write_cons]

end Minilib

namespace Minilib
open Mem Spec

theorem numeral_eq (n : Nat) : numeral 10 n = dtxt (digitsOf 10 n) := rfl

theorem numeral_ne_nil (b n : Nat) : numeral b n ≠ [] := by
  simp [numeral, digitsOf_ne_nil]

theorem uitodecLead_eq {i : Nat} (h1 : 1000000000 ≤ i) (h2 : i < 4294967296) :
    uitodecLead i = (digitChar false (i / 1000000000), i % 1000000000) := by
  have hq : i / 1000000000 = 1 ∨ i / 1000000000 = 2 ∨ i / 1000000000 = 3 ∨ i / 1000000000 = 4 := by omega
  unfold uitodecLead
  rcases hq with hq | hq | hq | hq
  · rw [if_neg (by omega), hq]; simp [digitChar]; omega
  · rw [if_pos (by omega)]; simp only; rw [if_neg (by omega), hq]; simp [digitChar]; omega
  · rw [if_pos (by omega)]; simp only; rw [if_pos (by omega), if_neg (by omega), hq]
    simp [digitChar]; omega
  · rw [if_pos (by omega)]; simp only; rw [if_pos (by omega), if_pos (by omega), hq]
    simp [digitChar]; omega

theorem numeral_ten {i : Nat} (h1 : 1000000000 ≤ i) (h2 : i < 4294967296) :
    numeral 10 i = digitChar false (i / 1000000000) :: dtxt (fixDigits 10 9 (i % 1000000000)) := by
  rw [numeral_eq, digitsOf_eq_fix (k := 9) (by omega) (Or.inl (by norm_num; omega)) (by norm_num; omega)]
  rw [fixDigits, dtxt_cons]
  have h3 : i / 10 ^ 9 % 10 = i / 1000000000 := by norm_num; omega
  rw [h3]
  congr 2
  have := @fixDigits_mod 10 9 i 9 (le_refl _)
  norm_num at this
  exact this.symm

/-- Ten digit numbers: the width does not matter. -/
theorem uitodec_ten {m : Mem} {i buf : Nat} {prec : Int} {lim pad : Byte} (h1 : 1000000000 ≤ i)
    (h2 : i < 4294967296) (hp1 : INT_MIN + 10 ≤ prec) (hp2 : prec ≤ INT_MAX)
    (hm : m.Mapped buf ((group lim (numeral 10 i)).length + 1)) :
    uitodec m i buf prec lim pad
      = .ok (m.write buf (group lim (numeral 10 i) ++ [0#8]), (group lim (numeral 10 i)).length) := by
  unfold uitodec
  rw [ckInt_ok (by omega) (by omega), if_neg (show ¬ i = 0 by omega)]
  simp only [Res.ok_bind, uitodecMain, ge_iff_le, h1, if_true, uitodecLead_eq h1 h2]
  have hm0 := hm
  rw [numeral_ten h1 h2, group, List.length_cons] at hm
  obtain ⟨hs, hm'⟩ := store_step hm (digitChar false (i / 1000000000))
  rw [hs, ← decTable_nine]
  simp only [Res.ok_bind]
  have := @uitodecLoop_all lim (if pad ≠ 0#8 then pad else 32#8) buf 9 (by omega)
    (m.upd buf (digitChar false (i / 1000000000))) 1 (i % 1000000000) (by norm_num; omega)
    (hm'.mono (by omega))
  rw [this, ← write_cons]
  simp only [Res.ok_bind]
  have := @uitodecEnd_some m buf (group lim (numeral 10 i)) (by simp [numeral_ten h1 h2, group]) hm0
  rw [numeral_ten h1 h2, group] at this ⊢
  rw [List.length_cons, Nat.add_comm] at this
  rw [this]
  simp; omega

/-- Up to nine digits and a width of at most 9. -/
theorem uitodec_small {m : Mem} {i buf : Nat} {prec : Int} {lim pad trail : Byte} {out : List Byte}
    (h2 : i < 1000000000) (hp1 : INT_MIN + 10 ≤ prec) (hp2 : prec ≤ 9)
    (ht : trail = if pad = 0#8 then 32#8 else pad)
    (ho : out = if padOut lim trail prec i = [] then [48#8] else padOut lim trail prec i)
    (hm : m.Mapped buf (out.length + 1)) :
    uitodec m i buf prec lim pad = .ok (m.write buf (out ++ [0#8]), out.length) := by
  have hone : out ≠ [] := by rw [ho]; split; exacts [by simp, by assumption]
  unfold uitodec
  rw [ckInt_ok (by omega) (by omega)]
  have ht' : (if pad ≠ 0#8 then pad else 32#8) = trail := by rw [ht]; split <;> simp_all
  have hbody : ∀ m : Mem, m.Mapped buf (out.length + 1) →
      (uitodecLoop lim trail buf uitodecDiv m 0 i (prec - 9) true >>= uitodecEnd buf)
        = .ok (m.write buf (out ++ [0#8]), (out.length : Int)) := by
    intro m hm
    rw [← decTable_nine]
    have := @uitodecLoop_pad lim trail buf 9 (by omega) prec (by omega) (by omega) m 0 i
      (by norm_num; omega)
      (hm.mono (by
        by_cases h : padOut lim trail prec i = []
        · rw [h]; simp
        · rw [ho, if_neg h]; omega))
    rw [show prec - ((9 : Nat) : Int) = prec - 9 by omega] at this
    rw [this]
    simp only [Res.ok_bind]
    by_cases h : padOut lim trail prec i = []
    · rw [h] at ho ⊢
      rw [if_pos rfl] at ho
      rw [ho] at hm ⊢
      have := uitodecEnd_none hm
      simpa using this
    · rw [if_neg h] at ho
      rw [← ho] at h ⊢
      have := uitodecEnd_some h hm
      simpa using this
  by_cases h0 : i = 0
  · obtain ⟨hs, _⟩ := store_step hm 48#8
    rw [if_pos h0, hs]
    simp only [Res.ok_bind, uitodecMain]
    rw [if_neg (by omega), if_neg (by omega), ckInt_ok (by omega) (by omega),
      show prec - 10 + 1 = prec - 9 by omega]
    simp only [Res.ok_bind]
    rw [ht', hbody _ (hm.upd _ _), upd_write_ne_nil _ _ _ (by simp)]
  · rw [if_neg h0]
    simp only [Res.ok_bind, uitodecMain]
    rw [if_neg (by omega), if_neg (by omega), ckInt_ok (by omega) (by omega),
      show prec - 10 + 1 = prec - 9 by omega]
    simp only [Res.ok_bind]
    rw [ht', hbody _ hm]

end Minilib

import Verif.Model.Printf
import Verif.Lemmas.Conv
import Verif.Lemmas.Ultodec
import Verif.Lemmas.Radix
/-
The number conversions as used by vsnprintf: whatever the number and the width, a fixed text of bounded
length and a NUL are written.
-/

set_option autoImplicit false

namespace Minilib
open Mem Spec

/-- The conversion `f` writes `l` and a NUL, and returns the length of `l`. -/
def Converts (f : Mem → Nat → Res (Mem × Int)) (l : List Byte) : Prop :=
  ∀ (m : Mem) (d : Nat), m.Mapped d (l.length + 1) → f m d = .ok (m.write d (l ++ [0#8]), (l.length : Int))

theorem sep_length (c : Byte) : ∀ l : List Byte, (sep c l).length ≤ l.length + l.length / 3 := by
  intro l
  induction l with
  | nil => simp [sep]
  | cons x l ih =>
    unfold sep
    rw [List.length_append]
    simp only [List.length_cons]
    split
    · rename_i h
      simp only [List.length_cons, List.length_nil]
      omega
    · simp only [List.length_nil]
      omega

theorem group_length (c : Byte) (l : List Byte) : (group c l).length ≤ l.length + (l.length - 1) / 3 := by
  cases l with
  | nil => simp [group]
  | cons x l =>
    have := sep_length c l
    simp only [group, List.length_cons, Nat.add_sub_cancel]
    omega

/-- The number of digits and of separators of a weight table. -/
def tabLen (lim : Byte) (ds : List Nat) : Nat :=
  ds.countP (fun d => decide (d ≠ 0)) + if lim = 0#8 then 0 else ds.countP (fun d => decide (d = 0))

theorem uitodecLoop_exists (lim trail : Byte) : ∀ (ds : List Nat) (i : Nat) (prec : Int) (tr : Bool),
    INT_MIN ≤ prec → prec + ds.length ≤ INT_MAX → ds.length ≤ 100 →
    ∃ l : List Byte, l.length ≤ tabLen lim ds ∧ ∀ (m : Mem) (buf p : Nat), m.Mapped (buf + p) l.length →
      uitodecLoop lim trail buf ds m p i prec tr = .ok (m.write (buf + p) l, p + l.length) := by
  intro ds
  induction ds with
  | nil =>
    intro i prec tr _ _ _
    exact ⟨[], by simp, fun m buf p _ => by simp [uitodecLoop]⟩
  | cons d ds ih =>
    intro i prec tr h1 h2 h3
    simp only [List.length_cons] at h2 h3
    by_cases hd : d = 0
    · subst hd
      by_cases hl : lim ≠ 0#8 ∧ prec = 0
      · obtain ⟨l, hlen, hl'⟩ := ih i prec tr h1 (by push_cast at h2 ⊢; omega) (by omega)
        refine ⟨lim :: l, ?_, fun m buf p hm => ?_⟩
        · simp [tabLen, hl.1] at hlen ⊢; omega
        · obtain ⟨a1, b1⟩ := store_step (n := l.length) hm lim
          rw [uitodecLoop, if_pos rfl, if_pos hl, a1]
          simp only [Res.ok_bind]
          rw [show buf + p + 1 = buf + (p + 1) by omega] at b1
          rw [hl' _ _ _ b1, write_cons]
          simp only [List.length_cons]
          congr 2; omega
      · obtain ⟨l, hlen, hl'⟩ := ih i prec tr h1 (by push_cast at h2 ⊢; omega) (by omega)
        refine ⟨l, ?_, fun m buf p hm => ?_⟩
        · simp [tabLen] at hlen ⊢; split at hlen <;> simp_all <;> omega
        · rw [uitodecLoop, if_pos rfl, if_neg hl]; exact hl' m buf p hm
    · cases hdg : uitodecDigit i d with
      | some r =>
        obtain ⟨n, i'⟩ := r
        obtain ⟨l, hlen, hl'⟩ := ih i' 0 false (by omega) (by push_cast at h2 ⊢; omega) (by omega)
        refine ⟨BitVec.ofNat 8 (48 + n) :: l, ?_, fun m buf p hm => ?_⟩
        · simp [tabLen, hd] at hlen ⊢; omega
        · obtain ⟨a1, b1⟩ := store_step (n := l.length) hm (BitVec.ofNat 8 (48 + n))
          rw [uitodecLoop, if_neg hd, hdg]
          simp only []
          rw [a1]
          simp only [Res.ok_bind]
          rw [show buf + p + 1 = buf + (p + 1) by omega] at b1
          rw [hl' _ _ _ b1, write_cons]
          simp only [List.length_cons]
          congr 2; omega
      | none =>
        by_cases hp : prec = 0
        · obtain ⟨l, hlen, hl'⟩ := ih i prec tr h1 (by push_cast at h2 ⊢; omega) (by omega)
          refine ⟨(if tr then trail else 48#8) :: l, ?_, fun m buf p hm => ?_⟩
          · simp [tabLen, hd] at hlen ⊢; omega
          · obtain ⟨a1, b1⟩ := store_step (n := l.length) hm (if tr then trail else 48#8)
            rw [uitodecLoop, if_neg hd, hdg]
            simp only []
            rw [if_pos hp, a1]
            simp only [Res.ok_bind]
            rw [show buf + p + 1 = buf + (p + 1) by omega] at b1
            rw [hl' _ _ _ b1, write_cons]
            simp only [List.length_cons]
            congr 2; omega
        · obtain ⟨l, hlen, hl'⟩ := ih i (prec + 1) tr (by omega) (by push_cast at h2 ⊢; omega) (by omega)
          refine ⟨l, ?_, fun m buf p hm => ?_⟩
          · simp [tabLen, hd] at hlen ⊢; omega
          · rw [uitodecLoop, if_neg hd, hdg]
            simp only []
            rw [if_neg hp, ckInt_ok (by omega) (by omega)]
            simp only [Res.ok_bind]
            exact hl' m buf p hm

/-- What `uitodec` writes, for every number and every width from 0 on. -/
theorem uitodec_exists (i : Nat) (prec : Int) (lim pad : Byte) (h1 : 0 ≤ prec)
    (h2 : prec ≤ INT_MAX) : ∃ l : List Byte, l.length ≤ (if lim = 0#8 then 10 else 13) ∧ l ≠ [] ∧
      Converts (fun m d => uitodec m i d prec lim pad) l := by
  have htab : tabLen lim uitodecDiv ≤ if lim = 0#8 then 9 else 12 := by
    unfold tabLen
    rw [show uitodecDiv.countP (fun d => decide (d ≠ 0)) = 9 from rfl,
      show uitodecDiv.countP (fun d => decide (d = 0)) = 3 from rfl]
    split <;> simp
  have hfin : ∀ (m : Mem) (buf : Nat) (l : List Byte), l ≠ [] → m.Mapped buf (l.length + 1) →
      uitodecEnd buf (m.write buf l, l.length) = .ok (m.write buf (l ++ [0#8]), (l.length : Int)) :=
    fun m buf l hl hm => uitodecEnd_some hl hm
  have hstart : ∀ (l : List Byte), l ≠ [] → (∀ (m : Mem) (d : Nat), m.Mapped d (l.length + 1) →
      uitodecMain m i d (prec - 10) lim (if pad ≠ 0#8 then pad else 32#8)
        = .ok (m.write d (l ++ [0#8]), (l.length : Int))) →
      Converts (fun m d => uitodec m i d prec lim pad) l := by
    intro l hl h m d hm
    show uitodec m i d prec lim pad = _
    unfold uitodec
    rw [ckInt_ok (by omega) (by omega)]
    simp only [Res.ok_bind]
    by_cases h0 : i = 0
    · rw [if_pos h0, (store_step (n := l.length) hm 48#8).1]
      simp only [Res.ok_bind]
      rw [h _ _ (hm.upd _ _), upd_write_ne_nil _ _ _ (by simp)]
    · rw [if_neg h0]
      simp only [Res.ok_bind]
      exact h m d hm
  by_cases hbig : i ≥ 1000000000
  · obtain ⟨l, hlen, hl⟩ := uitodecLoop_exists lim (if pad ≠ 0#8 then pad else 32#8) uitodecDiv
      (uitodecLead i).2 0 false (by omega) (by decide) (by decide)
    refine ⟨(uitodecLead i).1 :: l, ?_, by simp, hstart _ (by simp) fun m d hm => ?_⟩
    · simp only [List.length_cons]; split <;> simp_all <;> omega
    · unfold uitodecMain
      rw [if_pos hbig]
      obtain ⟨a1, b1⟩ := store_step (n := l.length + 1) hm (uitodecLead i).1
      rw [a1]
      simp only [Res.ok_bind]
      rw [hl _ _ _ (b1.mono (by omega)), ← write_cons]
      simp only [Res.ok_bind]
      have := hfin m d ((uitodecLead i).1 :: l) (by simp) hm
      simp only [List.length_cons] at this
      rw [Nat.add_comm 1]
      exact this
  · by_cases hp : prec - 10 = 0
    · obtain ⟨l, hlen, hl⟩ := uitodecLoop_exists lim (if pad ≠ 0#8 then pad else 32#8) uitodecDiv
        i (prec - 10) true (by omega) (by rw [show uitodecDiv.length = 12 from rfl]; omega) (by decide)
      refine ⟨32#8 :: l, ?_, by simp, hstart _ (by simp) fun m d hm => ?_⟩
      · simp only [List.length_cons]; split <;> simp_all <;> omega
      · unfold uitodecMain
        rw [if_neg hbig, if_pos hp]
        obtain ⟨a1, b1⟩ := store_step (n := l.length + 1) hm 32#8
        rw [a1]
        simp only [Res.ok_bind]
        rw [hl _ _ _ (b1.mono (by omega)), ← write_cons]
        simp only [Res.ok_bind]
        have := hfin m d (32#8 :: l) (by simp) hm
        simp only [List.length_cons] at this
        rw [Nat.add_comm 1]
        exact this
    · have hloop : ∃ l : List Byte, l.length ≤ tabLen lim uitodecDiv ∧
          ∀ (m : Mem) (buf p : Nat), m.Mapped (buf + p) l.length →
          uitodecLoop lim (if pad ≠ 0#8 then pad else 32#8) buf uitodecDiv m p i (prec - 10 + 1) true
            = .ok (m.write (buf + p) l, p + l.length) := by
        by_cases hle : prec - 10 + 1 + (12 : Nat) ≤ INT_MAX
        · exact uitodecLoop_exists lim _ uitodecDiv i (prec - 10 + 1) true (by omega)
            (by rw [show uitodecDiv.length = 12 from rfl]; exact hle) (by decide)
        · refine ⟨group lim (dtxt (digits0 10 i)), ?_, fun m buf p hm => ?_⟩
          · have hg := group_length lim (dtxt (digits0 10 i))
            rw [dtxt_length] at hg
            have hnd : (digits0 10 i).length ≤ 9 := by
              rw [digits0_length]; exact nd_le (by omega) (by omega)
            unfold tabLen
            rw [show uitodecDiv.countP (fun d => decide (d ≠ 0)) = 9 from rfl,
              show uitodecDiv.countP (fun d => decide (d = 0)) = 3 from rfl]
            split
            · rename_i hl0
              subst hl0
              have : (group 0#8 (dtxt (digits0 10 i))).length = (digits0 10 i).length := by
                cases hc : digits0 10 i with
                | nil => rfl
                | cons x l => simp [dtxt_cons, group, sep_zero, dtxt_length]
              omega
            · omega
          · rw [← decTable_nine]
            exact uitodecLoop_wide (k := 9) (by omega) (by omega) (by push_cast; omega) (by omega) hm
      obtain ⟨l, hlen, hl⟩ := hloop
      by_cases hnil : l = []
      · subst hnil
        refine ⟨[48#8], by simp; split <;> omega, by simp, hstart _ (by simp) fun m d hm => ?_⟩
        unfold uitodecMain
        rw [if_neg hbig, if_neg hp, ckInt_ok (by omega) (by omega)]
        simp only [Res.ok_bind]
        have := hl m d 0 (fun i hi => by simp at hi)
        rw [this]
        simp only [Res.ok_bind, write_nil, List.length_nil, Nat.add_zero]
        exact uitodecEnd_none hm
      · refine ⟨l, by split <;> simp_all <;> omega, hnil, hstart _ hnil fun m d hm => ?_⟩
        unfold uitodecMain
        rw [if_neg hbig, if_neg hp, ckInt_ok (by omega) (by omega)]
        simp only [Res.ok_bind]
        have := hl m d 0 (hm.mono (by omega))
        rw [this]
        simp only [Res.ok_bind, Nat.add_zero, Nat.zero_add]
        exact hfin m d l hnil hm

theorem itodec_exists (i prec : Int) (lim pad : Byte) (hi1 : INT_MIN < i) (hi2 : i ≤ INT_MAX) (h1 : 0 ≤ prec)
    (h2 : prec ≤ INT_MAX) : ∃ l : List Byte,
      l.length ≤ (if i < 0 then 1 else 0) + (if lim = 0#8 then 10 else 13) ∧
      Converts (fun m d => itodec m i d prec lim pad) l := by
  by_cases hneg : i < 0
  · obtain ⟨l, hlen, hne, hl⟩ := uitodec_exists (-i).toNat prec lim pad h1 h2
    refine ⟨45#8 :: l, by rw [if_pos hneg, List.length_cons]; omega, fun m d hm => ?_⟩
    show itodec m i d prec lim pad = _
    unfold itodec
    rw [if_pos hneg]
    obtain ⟨a1, b1⟩ := store_step (n := l.length + 1) hm 45#8
    rw [a1]
    simp only [Res.ok_bind]
    rw [ckInt_ok (by omega) (by omega)]
    simp only [Res.ok_bind]
    have := hl _ _ b1
    simp only at this
    rw [this, List.cons_append, write_cons]
    simp only [Res.ok_bind, List.length_cons]
    show Res.ok _ = _
    congr 2
  · obtain ⟨l, hlen, hne, hl⟩ := uitodec_exists i.toNat prec lim pad h1 h2
    refine ⟨l, by rw [if_neg hneg]; omega, fun m d hm => ?_⟩
    show itodec m i d prec lim pad = _
    unfold itodec
    rw [if_neg hneg]
    exact hl m d hm

theorem ultodec_exists (ui : Nat) (prec : Int) (lim : Byte) (hui : ui < 18446744073709551616) :
    ∃ l : List Byte, l.length ≤ 26 ∧ Converts (fun m d => ultodec m ui d prec lim) l := by
  by_cases h : 10000000000000000000 ≤ ui ∨ 20 ≤ prec
  · refine ⟨group lim (dtxt (fixDigits 10 20 ui)), ?_, fun m d hm => ultodec_big h hui rfl hm⟩
    have := group_length lim (dtxt (fixDigits 10 20 ui))
    rw [dtxt_length, fixDigits_length] at this
    omega
  · refine ⟨sep lim (dtxt (fixDigits 10 (max prec.toNat (nd 10 ui)) ui)), ?_,
      fun m d hm => ultodec_small (by omega) (by omega) rfl hm⟩
    have := sep_length lim (dtxt (fixDigits 10 (max prec.toNat (nd 10 ui)) ui))
    rw [dtxt_length, fixDigits_length] at this
    have h2 : nd 10 ui ≤ 19 := nd_le (by omega) (by omega)
    omega

theorem ltodec_exists (i prec : Int) (lim : Byte) (h1 : -9223372036854775808 < i)
    (h2 : i ≤ 9223372036854775807) :
    ∃ l : List Byte, l.length ≤ 27 ∧ Converts (fun m d => ltodec m i d prec lim) l := by
  by_cases hneg : i < 0
  · obtain ⟨l, hlen, hl⟩ := ultodec_exists (-i).toNat prec lim (by omega)
    refine ⟨45#8 :: l, by rw [List.length_cons]; omega, fun m d hm => ?_⟩
    show ltodec m i d prec lim = _
    unfold ltodec
    rw [if_pos hneg]
    obtain ⟨a1, b1⟩ := store_step (n := l.length + 1) hm 45#8
    rw [a1]
    simp only [Res.ok_bind]
    rw [ckLong, if_pos (by omega)]
    simp only [Res.ok_bind]
    have := hl _ _ b1
    simp only at this
    rw [this, List.cons_append, write_cons]
    simp only [Res.ok_bind, List.length_cons]
    show Res.ok _ = _
    congr 2
  · obtain ⟨l, hlen, hl⟩ := ultodec_exists i.toNat prec lim (by omega)
    refine ⟨l, by omega, fun m d hm => ?_⟩
    show ltodec m i d prec lim = _
    unfold ltodec
    rw [if_neg hneg]
    exact hl m d hm

theorem itohexLoop_exists (i : BitVec 32) (cap : Nat) : ∀ (ps : List (Nat × Nat)) (padding : Int),
    ∃ l : List Byte, l.length ≤ ps.length ∧ ∀ (m : Mem) (buf p : Nat), m.Mapped (buf + p) l.length →
      itohexLoop i cap buf ps m p padding = .ok (m.write (buf + p) l, p + l.length) := by
  intro ps
  induction ps with
  | nil =>
    intro padding
    exact ⟨[], by simp, fun m buf p _ => by simp [itohexLoop]⟩
  | cons ab ps ih =>
    obtain ⟨a, b⟩ := ab
    intro padding
    by_cases h : (if padding ≠ 0 ∧ itohexConv i a b ≠ 0 then 0 else padding) = 0
    · obtain ⟨l, hlen, hl⟩ := ih (if padding ≠ 0 ∧ itohexConv i a b ≠ 0 then 0 else padding)
      refine ⟨BitVec.ofNat 8 (if itohexConv i a b < 10 then itohexConv i a b + 48
        else itohexConv i a b + cap) :: l, by simpa using hlen, fun m buf p hm => ?_⟩
      obtain ⟨a1, b1⟩ := store_step (n := l.length) hm (BitVec.ofNat 8 (if itohexConv i a b < 10 then
        itohexConv i a b + 48 else itohexConv i a b + cap))
      rw [itohexLoop]
      rw [if_pos h, a1]
      simp only [Res.ok_bind]
      rw [show buf + p + 1 = buf + (p + 1) by omega] at b1
      rw [hl _ _ _ b1, write_cons]
      simp only [List.length_cons]
      congr 2; omega
    · obtain ⟨l, hlen, hl⟩ := ih ((if padding ≠ 0 ∧ itohexConv i a b ≠ 0 then 0 else padding) + 1)
      refine ⟨l, by simp; omega, fun m buf p hm => ?_⟩
      rw [itohexLoop]
      rw [if_neg h]
      exact hl m buf p hm

theorem itohex_exists (i : BitVec 32) (padding capitals : Int) (h1 : 0 ≤ padding) (h2 : padding ≤ INT_MAX) :
    ∃ l : List Byte, l.length ≤ 8 ∧ Converts (fun m d => itohex_ m i d padding capitals) l := by
  obtain ⟨l, hlen, hl⟩ := itohexLoop_exists i (if capitals > 0 then 55 else 87)
    [(3, 0), (3, 1), (2, 0), (2, 1), (1, 0), (1, 1), (0, 0), (0, 1)] (if padding - 8 < -7 then -7 else padding - 8)
  refine ⟨l, by simpa using hlen, fun m d hm => ?_⟩
  show itohex_ m i d padding capitals = _
  unfold itohex_
  rw [ckInt_ok (by omega) (by omega)]
  simp only [Res.ok_bind]
  have := hl m d 0 (hm.mono (by omega))
  simp only [Nat.add_zero, Nat.zero_add] at this
  rw [this]
  simp only [Res.ok_bind]
  have hlast : ∃ c, m.write d l (d + l.length) = some c := by
    exact hm.write d l l.length (by omega)
  obtain ⟨c, hc⟩ := hlast
  rw [store_some hc, write_append, write_singleton]
  rfl

theorem itooct_exists (junk : Nat → Byte) (i : Int) (h1 : INT_MIN < i) (h2 : i ≤ INT_MAX) :
    ∃ l : List Byte, l.length ≤ 16 ∧ Converts (fun m d => itooct junk m i d) l := by
  have hnd : ∀ n : Nat, n ≤ 2147483647 → nd 8 n ≤ 11 := fun n hn => nd_le (by omega) (by omega)
  have hend : ∀ (m : Mem) (d : Nat) (l : List Byte), m.Mapped d (l.length + 1) →
      (m.write d l).store (d + l.length) 0#8 = .ok (m.write d (l ++ [0#8])) := by
    intro m d l hm
    obtain ⟨c, hc⟩ := hm.write d l l.length (by omega)
    rw [store_some hc, write_append, write_singleton]
  have hcopy : ∀ (t : Nat → Byte) (n : Nat), ((List.range n).reverse.map t).length = n := by
    intro t n; simp
  by_cases h0 : i = 0
  · obtain ⟨t, ht, _⟩ := itooctDigits_eq (tmp := junk) (i := 0) (p := 0) (by decide)
    have hz : nd 8 0 = 0 := rfl
    rw [hz] at ht
    refine ⟨48#8 :: (List.range 1).reverse.map t, by simp, fun m d hm => ?_⟩
    show itooct junk m i d = _
    unfold itooct
    obtain ⟨a1, b1⟩ := store_step (n := 2) hm 48#8
    rw [if_pos h0, a1]
    simp only [Res.ok_bind]
    rw [ht]
    simp only [Res.ok_bind]
    rw [itooctCopy_eq _ (b1.mono (by omega))]
    simp only [Res.ok_bind]
    have := hend _ _ ((List.range 1).reverse.map t) (by rw [hcopy]; exact b1)
    rw [hcopy] at this
    rw [this]
    simp only [Res.ok_bind, List.cons_append, write_cons]
    show Res.ok _ = _
    congr 2
  · by_cases hneg : i < 0
    · obtain ⟨t, ht, _⟩ := itooctDigits_eq (tmp := junk) (i := (-i).toNat) (p := 0)
        (by have := hnd (-i).toNat (by omega); omega)
      rw [Nat.zero_add] at ht
      have hn := hnd (-i).toNat (by omega)
      refine ⟨45#8 :: (List.range (nd 8 (-i).toNat + 1)).reverse.map t, by simp; omega, fun m d hm => ?_⟩
      show itooct junk m i d = _
      unfold itooct
      rw [List.length_cons, hcopy] at hm
      obtain ⟨a1, b1⟩ := store_step (n := nd 8 (-i).toNat + 2) hm 45#8
      rw [if_neg h0, if_pos hneg, ckInt_ok (by omega) (by omega)]
      simp only [Res.ok_bind]
      rw [a1]
      simp only [Res.ok_bind]
      rw [ht]
      simp only [Res.ok_bind]
      rw [itooctCopy_eq _ (b1.mono (by omega))]
      simp only [Res.ok_bind]
      have := hend _ _ ((List.range (nd 8 (-i).toNat + 1)).reverse.map t) (by rw [hcopy]; exact b1)
      rw [hcopy] at this
      rw [this]
      simp only [Res.ok_bind, List.cons_append, write_cons]
      show Res.ok _ = _
      congr 2
      rw [List.length_cons, hcopy]; push_cast; omega
    · obtain ⟨t, ht, _⟩ := itooctDigits_eq (tmp := junk) (i := i.toNat) (p := 0)
        (by have := hnd i.toNat (by omega); omega)
      rw [Nat.zero_add] at ht
      have hn := hnd i.toNat (by omega)
      refine ⟨(List.range (nd 8 i.toNat + 1)).reverse.map t, by simp; omega, fun m d hm => ?_⟩
      show itooct junk m i d = _
      unfold itooct
      rw [hcopy] at hm
      rw [if_neg h0, if_neg hneg]
      rw [ht]
      simp only [Res.ok_bind]
      rw [itooctCopy_eq _ (hm.mono (by omega))]
      simp only [Res.ok_bind]
      have := hend _ _ ((List.range (nd 8 i.toNat + 1)).reverse.map t) (by rw [hcopy]; exact hm)
      rw [hcopy] at this
      rw [this]
      simp only [Res.ok_bind]
      show Res.ok _ = _
      congr 2
      rw [hcopy]; push_cast; omega

end Minilib

import Verif.Lemmas.Radix
import Verif.Lemmas.Atoi
import Verif.Props.Conv
/-
Properties C27 (hexadecimal, binary, octal) and C28 (atoi, atol).
-/

set_option autoImplicit false

namespace Minilib
open Mem Spec

/-! ### C27 -/

/-- C27 for `itohex`, all values and paddings. -/
def C27_itohex_full : Prop :=
  ∀ (m : Mem) (i : BitVec 32) (buf : Nat) (padding : Int), 0 ≤ padding → padding ≤ INT_MAX →
    m.Mapped buf ((padTo padding 48#8 (numeral 16 i.toNat)).length + 1) →
    itohex m i buf padding
      = .ok (m.write buf (padTo padding 48#8 (numeral 16 i.toNat) ++ [0#8]),
          (padTo padding 48#8 (numeral 16 i.toNat)).length)

/-- C27: `itohex`, every 32 bit value, every padding up to 8. -/
theorem C27_itohex_partial {m : Mem} {i : BitVec 32} {buf : Nat} {padding : Int}
    (hp1 : INT_MIN + 8 ≤ padding) (hp2 : padding ≤ 8)
    (hm : m.Mapped buf ((padTo padding 48#8 (numeral 16 i.toNat)).length + 1)) :
    itohex m i buf padding
      = .ok (m.write buf (padTo padding 48#8 (numeral 16 i.toNat) ++ [0#8]),
          (padTo padding 48#8 (numeral 16 i.toNat)).length) :=
  itohex_eq (caps := false) (by decide) hp1 hp2 rfl hm

/-- C27: `itoHEX`, the same with capital letters. -/
theorem C27_itoHEX_partial {m : Mem} {i : BitVec 32} {buf : Nat} {padding : Int}
    (hp1 : INT_MIN + 8 ≤ padding) (hp2 : padding ≤ 8)
    (hm : m.Mapped buf ((padTo padding 48#8 (numeralCaps 16 i.toNat)).length + 1)) :
    itoHEX m i buf padding
      = .ok (m.write buf (padTo padding 48#8 (numeralCaps 16 i.toNat) ++ [0#8]),
          (padTo padding 48#8 (numeralCaps 16 i.toNat)).length) :=
  itohex_eq (caps := true) (by decide) hp1 hp2 rfl hm

example : itohex cvBuf (-2#32) 100 0
    = .ok (cvBuf.write 100 [102, 102, 102, 102, 102, 102, 102, 101, 0], 8) := by
  have := @C27_itohex_partial cvBuf (-2#32) 100 0 (by decide) (by decide) (by decide +kernel)
  rwa [show padTo 0 48#8 (numeral 16 (-2#32 : BitVec 32).toNat)
    = [102, 102, 102, 102, 102, 102, 102, 101] by decide +kernel] at this

example : itoHEX cvBuf 0xab#32 100 4 = .ok (cvBuf.write 100 [48, 48, 65, 66, 0], 4) := by
  have := @C27_itoHEX_partial cvBuf 0xab#32 100 4 (by decide) (by decide) (by decide +kernel)
  rwa [show padTo 4 48#8 (numeralCaps 16 (0xab#32 : BitVec 32).toNat)
    = [48, 48, 65, 66] by decide +kernel] at this

/-- C27 fails for a padding above 8: `itohex(0, buf, 9)` writes nothing but the terminator. -/
theorem C27_itohex_refuted : ¬ C27_itohex_full := by
  intro h
  have h := h cvBuf 0#32 100 9 (by decide) (by decide) (by decide +kernel)
  obtain ⟨m', e⟩ : ∃ m', itohex cvBuf 0#32 100 9 = .ok (m', 0) := ⟨_, rfl⟩
  rw [e] at h
  simp only [Res.ok.injEq, Prod.mk.injEq] at h
  have h2 := h.2
  revert h2
  decide +kernel

theorem itobin_run {m : Mem} {i : BitVec 32} {buf : Nat} {prec groups : Int} (hg : 32 ≤ groups)
    (hp1 : INT_MIN + 32 ≤ prec) (hp2 : prec ≤ 32) (h0 : i.toNat ≠ 0 ∨ 1 ≤ prec) {out : List Byte}
    (ho : out = padTo prec 48#8 (numeral 2 i.toNat) ++ binTail groups)
    (hm : m.Mapped buf (out.length + 1)) :
    itobin_ m i buf prec groups = .ok (m.write buf (out ++ [0#8]), out.length) := by
  have hf := @fixDigits_padTo 2 i.toNat (by omega) false prec h0
  have ho' : out = (fixDigits 2 (max prec.toNat (nd 2 i.toNat)) i.toNat).map (digitChar false)
      ++ binTail groups := by rw [hf, ho]; rfl
  have hlen : out.length = max prec.toNat (nd 2 i.toNat) + (binTail groups).length := by
    rw [ho']; simp
  have := @itobinLoop_skip groups hg buf 32 (by omega) prec hp2 hp1 m i 0 i.toNat
    (by have := i.isLt; omega) (by simp) h0 (hm.mono (by omega))
  rw [← ho', ← hlen] at this
  have hpos : out.length ≠ 0 := by
    rw [hlen]
    have : 0 < max prec.toNat (nd 2 i.toNat) := by
      rcases h0 with h | h
      · rw [nd_eq h]
        have := List.length_pos_iff.2 (digitsOf_ne_nil 2 i.toNat)
        omega
      · omega
    omega
  unfold itobin_
  rw [ckInt_ok (by omega) (by omega)]
  simp only [Res.ok_bind]
  rw [show itobinLoop groups buf 32 m i 0 (prec - 32) 0
    = itobinLoop groups buf 32 m i 0 (prec - (32 : Nat)) ((32 - 32 : Nat) : Int) from rfl, this]
  simp only [Res.ok_bind, Nat.zero_add, Nat.add_zero]
  rw [if_neg hpos]
  obtain ⟨c, hc⟩ := (hm.write buf out) out.length (by omega)
  rw [store_some hc]
  simp [write_append, write_singleton]

/-- C27 for `itobin(i, buf)`. -/
def C27_itobin_full : Prop :=
  ∀ (m : Mem) (i : BitVec 32) (buf : Nat), m.Mapped buf 40 →
    itobin m i buf = .ok (m.write buf (numeral 2 i.toNat ++ [0#8]), (numeral 2 i.toNat).length)

/-- C27: `_itobin` with a group size above 32 (no grouping): every value except 0 without
precision, every precision up to 32. -/
theorem C27_itobin_nogroup_partial {m : Mem} {i : BitVec 32} {buf : Nat} {prec groups : Int}
    (hg : 32 < groups) (hp1 : INT_MIN + 32 ≤ prec) (hp2 : prec ≤ 32) (h0 : i ≠ 0#32 ∨ 1 ≤ prec)
    (hm : m.Mapped buf ((padTo prec 48#8 (numeral 2 i.toNat)).length + 1)) :
    itobin_ m i buf prec groups
      = .ok (m.write buf (padTo prec 48#8 (numeral 2 i.toNat) ++ [0#8]),
          (padTo prec 48#8 (numeral 2 i.toNat)).length) := by
  refine itobin_run (by omega) hp1 hp2 ?_ ?_ hm
  · rcases h0 with h | h
    · exact Or.inl (fun h' => h (BitVec.eq_of_toNat_eq (by simpa using h')))
    · exact Or.inr h
  · simp [binTail, show groups ≠ 32 by omega]

example : itobin_ cvBuf 5#32 100 8 33
    = .ok (cvBuf.write 100 [48, 48, 48, 48, 48, 49, 48, 49, 0], 8) := by
  have := @C27_itobin_nogroup_partial cvBuf 5#32 100 8 33 (by decide) (by decide) (by decide)
    (by decide) (by decide +kernel)
  rwa [show padTo 8 48#8 (numeral 2 (5#32 : BitVec 32).toNat)
    = [48, 48, 48, 48, 48, 49, 48, 49] by decide +kernel] at this

/-- C27: `itobin(i, buf)` of every non-zero value writes the right digits followed by one blank. -/
theorem C27_itobin_partial {m : Mem} {i : BitVec 32} {buf : Nat} (h0 : i ≠ 0#32)
    (hm : m.Mapped buf ((numeral 2 i.toNat).length + 2)) :
    itobin m i buf
      = .ok (m.write buf (numeral 2 i.toNat ++ [32#8] ++ [0#8]), (numeral 2 i.toNat).length + 1) := by
  have hp : padTo 0 48#8 (numeral 2 i.toNat) = numeral 2 i.toNat := by simp [padTo]
  have := @itobin_run m i buf 0 32 (by omega) (by omega) (by omega)
    (Or.inl (fun h' => h0 (BitVec.eq_of_toNat_eq (by simpa using h')))) _ rfl
    (by simpa [binTail, hp] using hm)
  rw [itobin, this]
  simp [binTail, hp]

example : itobin cvBuf 5#32 100 = .ok (cvBuf.write 100 [49, 48, 49, 32, 0], 4) := by
  have := @C27_itobin_partial cvBuf 5#32 100 (by decide) (by decide +kernel)
  rwa [show numeral 2 (5#32 : BitVec 32).toNat = [49, 48, 49] by decide +kernel] at this

/-- C27 fails for `itobin`: a blank follows the digits and is counted (and `itobin(0)` writes only a
blank). -/
theorem C27_itobin_refuted : ¬ C27_itobin_full := by
  intro h
  have h := h (object 100 (List.replicate 40 7#8)) 0#32 100 (by decide +kernel)
  obtain ⟨m', e, h1⟩ : ∃ m', itobin (object 100 (List.replicate 40 7#8)) 0#32 100 = .ok (m', 1) ∧
      m' 100 = some 32#8 := ⟨_, rfl, by decide +kernel⟩
  rw [e] at h
  simp only [Res.ok.injEq, Prod.mk.injEq] at h
  rw [h.1] at h1
  revert h1
  decide +kernel

/-- C27 for `itooct`: the octal digits, whatever the uninitialised array contains. -/
def C27_itooct_full : Prop :=
  ∀ (tmp : Nat → Byte) (m : Mem) (i : Int) (buf : Nat), 0 ≤ i → i ≤ INT_MAX → m.Mapped buf 16 →
    itooct tmp m i buf
      = .ok (m.write buf (numeral 8 i.toNat ++ [0#8]), (numeral 8 i.toNat).length)

/-- C27: `itooct` of a positive number writes one indeterminate byte, then the right digits. -/
theorem C27_itooct_partial {tmp : Nat → Byte} {m : Mem} {i : Int} {buf : Nat} (h1 : 0 < i)
    (h2 : i ≤ INT_MAX) (hm : m.Mapped buf ((numeral 8 i.toNat).length + 2)) :
    itooct tmp m i buf
      = .ok (m.write buf (tmp (numeral 8 i.toNat).length :: numeral 8 i.toNat ++ [0#8]),
          (numeral 8 i.toNat).length + 1) := by
  have hne : i.toNat ≠ 0 := by omega
  have hlen : (numeral 8 i.toNat).length = nd 8 i.toNat := by simp [numeral, nd_eq hne]
  have hd : dtxt (digits0 8 i.toNat) = numeral 8 i.toNat := by rw [digits0_eq hne]; rfl
  obtain ⟨t, e1, e2⟩ := @itooct_tail tmp m i.toNat buf (by omega) (hm.mono (by omega))
  unfold itooct
  rw [if_neg (by omega), if_neg (by omega), e1]
  simp only [Res.ok_bind]
  rw [e2, hd, ← hlen]
  simp only [Res.ok_bind]
  obtain ⟨c, hc⟩ := (hm.write buf (tmp (numeral 8 i.toNat).length :: numeral 8 i.toNat))
    ((numeral 8 i.toNat).length + 1) (by omega)
  rw [store_some hc]
  simp only [Res.ok_bind, Res.pure_eq]
  rw [write_append, write_singleton]
  simp

example : itooct (fun _ => 63#8) cvBuf 511 100
    = .ok (cvBuf.write 100 [63, 55, 55, 55, 0], 4) := by
  have := @C27_itooct_partial (fun _ => 63#8) cvBuf 511 100 (by decide) (by decide) (by decide +kernel)
  rwa [show numeral 8 (511 : Int).toNat = [55, 55, 55] by decide +kernel] at this

/-- C27 fails for `itooct`: the first byte written comes from an uninitialised array. -/
theorem C27_itooct_refuted : ¬ C27_itooct_full := by
  intro h
  have h := h (fun _ => 63#8) cvBuf 511 100 (by decide) (by decide) (by decide +kernel)
  rw [C27_itooct_partial (by decide) (by decide) (by decide +kernel)] at h
  simp only [Res.ok.injEq, Prod.mk.injEq] at h
  have h2 := h.2
  revert h2
  decide +kernel

/-! ### C28 -/

/-- The value of an optionally signed digit string. -/
def signedVal (neg : Bool) (v : Nat) : Int := if neg then -(v : Int) else v

/-- An optionally signed digit string. -/
def signedTxt (neg : Bool) (ds : List Nat) : List Byte := (if neg then [45#8] else []) ++ dtxt ds

/-- C28 for `atoi`: an optionally signed digit string followed by anything that is not a digit. -/
def C28_atoi_full : Prop :=
  ∀ (m : Mem) (c : Nat) (neg : Bool) (ds : List Nat) (rest : List Byte),
    m.IsStr c (signedTxt neg ds ++ rest) → (∀ d ∈ ds, d < 10) → ds ≠ [] →
    (∀ b, rest.head? = some b → ¬ (48 ≤ b.toNat ∧ b.toNat ≤ 57)) →
    INT_MIN ≤ signedVal neg (valueOf 10 ds) → signedVal neg (valueOf 10 ds) ≤ INT_MAX →
    atoi m c = .ok (signedVal neg (valueOf 10 ds))

theorem signedTxt_length (neg : Bool) (ds : List Nat) :
    (signedTxt neg ds).length = (if neg then 1 else 0) + ds.length := by
  cases neg <;> simp [signedTxt]; omega

/-- C28: `atoi` of up to ten digits with an optional minus sign and nothing behind. -/
theorem C28_atoi_partial {m : Mem} {c : Nat} {neg : Bool} {ds : List Nat}
    (hs : m.IsStr c (signedTxt neg ds)) (hd : ∀ d ∈ ds, d < 10) (hlen : ds.length ≤ 10)
    (hv : valueOf 10 ds ≤ 2147483647) :
    atoi m c = .ok (signedVal neg (valueOf 10 ds)) := by
  unfold atoi
  rw [atoiLen_eq hs (by rw [signedTxt_length]; split <;> omega), signedTxt_length]
  simp only [Res.ok_bind]
  have hdig : ∀ pre : List Byte, m.Holds c (pre ++ dtxt ds) →
      atoiLoop m c (pre.length + ds.length) 0 1
        = atoiLoop m c pre.length (valueOf 10 ds : Nat) (dezOf ds.length) := by
    intro pre hp
    have := @atoiLoop_digits m c pre ds 0 0 hp hd (by omega) (by simpa using hv)
    simpa [dezOf] using this
  cases neg with
  | true =>
    have hh : m.Holds c ([45#8] ++ dtxt ds) := hs.1
    have h0 : m c = some 45#8 := (holds_cons.1 hh).1
    have := hdig [45#8] hh
    rw [List.length_singleton] at this
    rw [if_pos rfl, this]
    rw [atoiLoop, load_some (show m (c + 0) = some 45#8 from h0)]
    obtain ⟨D, hD⟩ := @atoiStep_minus ds.length ((valueOf 10 ds : Nat) : Int)
    simp only [Res.ok_bind]
    rw [hD]
    simp only [Res.ok_bind, atoiLoop]
    rw [load_some h0]
    simp only [Res.ok_bind, if_true, signedVal]
    rw [ckInt_ok (by omega) (by omega)]
  | false =>
    have hh : m.Holds c ([] ++ dtxt ds) := hs.1
    have := hdig [] hh
    simp only [List.length_nil] at this
    simp only [Bool.false_eq_true, if_false]
    rw [this]
    simp only [atoiLoop, Res.ok_bind, signedVal, Bool.false_eq_true, if_false]
    cases ds with
    | nil =>
      have : m c = some 0#8 := by have := hs.2.1; simpa [signedTxt] using this
      rw [load_some this]; simp
    | cons d ds =>
      have h0 : m c = some (digitChar false d) := (holds_cons.1 hh).1
      have : digitChar false d ≠ 45#8 := by
        have := hd d (by simp)
        clear h0 hs hh hv hlen hdig
        interval_cases d <;> decide
      rw [load_some h0]
      simp [this]

/-- C28: what `itodec` prints, `atoi` reads, for every `int` except INT_MIN. -/
theorem C28_atoi_itodec_partial {m : Mem} {i : Int} {buf : Nat} (h1 : INT_MIN < i) (h2 : i ≤ INT_MAX)
    (hm : m.Mapped buf ((decimal i).length + 1)) :
    ∃ m' n, itodec m i buf 0 0#8 0#8 = .ok (m', n) ∧ atoi m' buf = .ok i := by
  refine ⟨_, _, C25_itodec_partial h1 h2 (by omega) (by omega) hm, ?_⟩
  have e : decimal i = signedTxt (decide (i < 0)) (digitsOf 10 i.natAbs) := by
    unfold decimal signedTxt; split <;> simp [*] <;> rfl
  have hd := @digitsOf_lt 10 i.natAbs (by omega)
  have hstr : (m.write buf (decimal i ++ [0#8])).IsStr buf (signedTxt (decide (i < 0)) (digitsOf 10 i.natAbs)) := by
    rw [isStr_iff, ← e]
    refine ⟨write_holds _ _ _, ?_⟩
    intro b hb
    rw [e, signedTxt] at hb
    rcases List.mem_append.1 hb with hb | hb
    · split at hb
      · simp at hb; rw [hb]; decide
      · simp at hb
    · exact dtxt_ne_zero hd b hb
  have hlen : (digitsOf 10 i.natAbs).length ≤ 10 := by
    by_cases h0 : i.natAbs = 0
    · rw [h0]; decide +kernel
    · rw [← nd_eq h0]; exact nd_le (by omega) (by norm_num; omega)
  have := C28_atoi_partial hstr hd hlen (by rw [valueOf_digitsOf]; omega)
  rw [this, valueOf_digitsOf, signedVal]
  by_cases h : i < 0 <;> simp only [h, decide_true, decide_false, if_true, if_false, Bool.false_eq_true, Res.ok.injEq] <;> omega

example : ∃ m' n, itodec cvBuf (-2147483647) 100 0 0#8 0#8 = .ok (m', n) ∧
    atoi m' 100 = .ok (-2147483647) :=
  C28_atoi_itodec_partial (by decide) (by decide) (by decide +kernel)

/-- C28 fails for trailing text: `atoi("12abc")` is 12000 (every further character counts as a
zero). -/
theorem C28_atoi_refuted : ¬ C28_atoi_full := by
  intro h
  have hs : (object 100 [49, 50, 97, 98, 99, 0]).IsStr 100 [49, 50, 97, 98, 99] := by decide
  have h := h (object 100 [49, 50, 97, 98, 99, 0]) 100 false [1, 2] [97, 98, 99] hs (by decide)
    (by decide) (by decide) (by decide) (by decide)
  unfold atoi at h
  rw [atoiLen_eq hs (by decide)] at h
  revert h
  decide +kernel

/-- C28 fails for INT_MIN, even without trailing text: the sum overflows. -/
theorem C28_atoi_min_refuted : ¬ ∀ (m : Mem) (c : Nat) (i : Int), INT_MIN ≤ i → i ≤ INT_MAX →
    m.IsStr c (decimal i) → atoi m c = .ok i := by
  intro h
  have hs : (object 100 [45, 50, 49, 52, 55, 52, 56, 51, 54, 52, 56, 0]).IsStr 100
      [45, 50, 49, 52, 55, 52, 56, 51, 54, 52, 56] := by decide +kernel
  have h := h _ 100 INT_MIN (by decide) (by decide)
    (by rw [show decimal INT_MIN = [45, 50, 49, 52, 55, 52, 56, 51, 54, 52, 56] by decide +kernel]; exact hs)
  unfold atoi at h
  rw [atoiLen_eq hs (by decide)] at h
  revert h
  decide +kernel

/-- C28 for `atol`: an optionally signed digit string followed by any byte that is not a digit (the
terminator or other text) gives its value. -/
def C28_atol_full : Prop :=
  ∀ (m : Mem) (c : Nat) (neg : Bool) (ds : List Nat) (t : Byte),
    m.Holds c (signedTxt neg ds ++ [t]) → (∀ d ∈ ds, d < 10) → ds ≠ [] →
    ¬ (48 ≤ t.toNat ∧ t.toNat ≤ 57) →
    -9223372036854775808 ≤ signedVal neg (valueOf 10 ds) →
    signedVal neg (valueOf 10 ds) ≤ 9223372036854775807 →
    atol m c = .ok (signedVal neg (valueOf 10 ds))

theorem not_digit {t : Byte} (h : ¬ (48 ≤ t.toNat ∧ t.toNat ≤ 57)) :
    ¬ (t.toInt ≥ 48 ∧ t.toInt ≤ 57) := by
  rw [BitVec.toInt_eq_toNat_bmod, Int.bmod_def]
  split <;> omega

/-- C28: `atol` of every digit string whose magnitude fits into a `long`, any text may follow. -/
theorem C28_atol_partial {m : Mem} {c : Nat} {neg : Bool} {ds : List Nat} {t : Byte}
    (hh : m.Holds c (signedTxt neg ds ++ [t])) (hd : ∀ d ∈ ds, d < 10) (hne : ds ≠ [])
    (ht : ¬ (48 ≤ t.toNat ∧ t.toNat ≤ 57)) (hv : valueOf 10 ds ≤ 9223372036854775807) :
    atol m c = .ok (signedVal neg (valueOf 10 ds)) := by
  have hrun : ∀ a, m.Holds a (dtxt ds ++ [t]) → atolLoop m a 0 = .ok ((valueOf 10 ds : Nat) : Int) := by
    intro a ha
    rw [holds_append] at ha
    have h1 := @atolLoop_digits m ds a 0 ha.1 hd (by simpa using hv)
    have h2 := ha.2 0 (by simp)
    simp only [dtxt_length, Nat.add_zero, List.getElem_cons_zero] at h2
    rw [show ((0 : Nat) : Int) = 0 from rfl] at h1
    rw [h1, atolLoop, load_some h2]
    simp only [Res.ok_bind]
    rw [if_neg (not_digit ht)]
    simp
  unfold atol
  cases neg with
  | true =>
    rw [signedTxt, if_pos rfl, List.append_assoc, List.singleton_append, holds_cons] at hh
    rw [load_some hh.1]
    simp only [Res.ok_bind, if_true]
    rw [hrun _ hh.2]
    simp only [Res.ok_bind, signedVal, if_true]
    rw [ckLong, if_pos (by omega)]
  | false =>
    rw [signedTxt, if_neg (by simp), List.nil_append] at hh
    match ds, hne, hd with
    | d :: ds, _, hd =>
      have h0 : m c = some (digitChar false d) := (holds_cons.1 hh).1
      have h1 : digitChar false d ≠ 45#8 := by
        have := hd d (by simp)
        clear h0 hh hv hrun
        interval_cases d <;> decide
      rw [load_some h0]
      simp only [Res.ok_bind, h1, if_false]
      rw [hrun _ hh]
      simp [signedVal]

/-- "-1234567890123 x": parsing stops at the blank. -/
example : atol (object 100 [45, 49, 50, 51, 52, 53, 54, 55, 56, 57, 48, 49, 50, 51, 32, 120, 0]) 100
    = .ok (-1234567890123) :=
  C28_atol_partial (neg := true) (ds := [1, 2, 3, 4, 5, 6, 7, 8, 9, 0, 1, 2, 3]) (t := 32#8)
    (by decide +kernel) (by decide) (by decide) (by decide) (by decide)

/-- C28: what `ltodec` prints, `atol` reads, for every `long` except 0 and LONG_MIN. -/
theorem C28_atol_ltodec_partial {m : Mem} {i : Int} {buf : Nat} (h0 : i ≠ 0)
    (h1 : -9223372036854775808 < i) (h2 : i ≤ 9223372036854775807)
    (hm : m.Mapped buf ((decimal i).length + 1)) :
    ∃ m' n, ltodec m i buf 0 0#8 = .ok (m', n) ∧ atol m' buf = .ok i := by
  refine ⟨_, _, C26_ltodec_partial h0 h1 h2 (by omega) hm, ?_⟩
  have e : decimal i = signedTxt (decide (i < 0)) (digitsOf 10 i.natAbs) := by
    unfold decimal signedTxt; split <;> simp [*] <;> rfl
  have := @C28_atol_partial (m.write buf (decimal i ++ [0#8])) buf (decide (i < 0))
    (digitsOf 10 i.natAbs) 0#8 (by rw [← e]; exact write_holds _ _ _) (digitsOf_lt (by omega))
    (digitsOf_ne_nil _ _) (by decide) (by rw [valueOf_digitsOf]; omega)
  rw [this, valueOf_digitsOf, signedVal]
  by_cases h : i < 0 <;> simp only [h, decide_true, decide_false, if_true, if_false, Bool.false_eq_true, Res.ok.injEq] <;> omega

example : ∃ m' n, ltodec cvBuf (-9007199254740993) 100 0 0#8 = .ok (m', n) ∧
    atol m' 100 = .ok (-9007199254740993) :=
  C28_atol_ltodec_partial (by decide) (by decide) (by decide) (by decide +kernel)

/-- C28 fails for LONG_MIN: the magnitude overflows. -/
theorem C28_atol_refuted : ¬ C28_atol_full := by
  intro h
  have h := h (object 100 [45, 57, 50, 50, 51, 51, 55, 50, 48, 51, 54, 56, 53, 52, 55, 55, 53, 56, 48, 56, 0])
    100 true [9, 2, 2, 3, 3, 7, 2, 0, 3, 6, 8, 5, 4, 7, 7, 5, 8, 0, 8] 0#8 (by decide +kernel) (by decide)
    (by decide) (by decide) (by decide) (by decide)
  unfold atol at h
  rw [load_some (b := 45#8) (by decide)] at h
  simp only [Res.ok_bind, if_true] at h
  have h1 := @atolLoop_digits
    (object 100 [45, 57, 50, 50, 51, 51, 55, 50, 48, 51, 54, 56, 53, 52, 55, 55, 53, 56, 48, 56, 0])
    [9, 2, 2, 3, 3, 7, 2, 0, 3, 6, 8, 5, 4, 7, 7, 5, 8, 0] 101 0 (by decide +kernel) (by decide) (by decide)
  rw [show ((0 : Nat) : Int) = 0 from rfl] at h1
  rw [h1, atolLoop, load_some (b := 56#8) (by decide)] at h
  simp only [Res.ok_bind] at h
  rw [if_pos (by decide), ckLong, if_pos (by decide)] at h
  simp only [Res.ok_bind] at h
  rw [ckLong, if_neg (by decide)] at h
  cases h

end Minilib

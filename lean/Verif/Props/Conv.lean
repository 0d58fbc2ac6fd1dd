import Verif.Lemmas.Ultodec
/-
Properties C25 - C28: conversions between numbers and text.
-/

set_option autoImplicit false

namespace Minilib
open Mem Spec

/-- 24 writable bytes at address 100, for the examples. -/
def cvBuf : Mem := object 100 (List.replicate 24 7#8)

/-! ### Sanity of the specification of numerals -/

/-- The numeral of `n` denotes `n`, has digits below the base, and does not start with a zero
(unless `n` is 0): these facts determine it. -/
theorem numeral_spec (b n : Nat) (hb : 2 ≤ b) :
    valueOf b (digitsOf b n) = n ∧ (∀ d ∈ digitsOf b n, d < b) ∧
      (n ≠ 0 → (digitsOf b n).head? ≠ some 0) :=
  ⟨valueOf_digitsOf b n, digitsOf_lt hb, digitsOf_head⟩

/-! ### C25 -/

/-- The padding character: blank when none is given. -/
def padChar (pad : Byte) : Byte := if pad = 0#8 then 32#8 else pad

/-- C25 for `uitodec`, for all values, widths and pad characters. -/
def C25_uitodec_full : Prop :=
  ∀ (m : Mem) (i buf : Nat) (prec : Int) (pad : Byte), i < 4294967296 → 0 ≤ prec → prec ≤ INT_MAX →
    m.Mapped buf ((padTo prec (padChar pad) (numeral 10 i)).length + 1) →
    uitodec m i buf prec 0#8 pad
      = .ok (m.write buf (padTo prec (padChar pad) (numeral 10 i) ++ [0#8]),
          (padTo prec (padChar pad) (numeral 10 i)).length)

/-- C25: every non-zero 32 bit number, every width up to 9 (negative ones included): the digits,
padded on the left, and a NUL; nothing else is written, the length is returned. -/
theorem C25_uitodec_partial {m : Mem} {i buf : Nat} {prec : Int} {pad : Byte} (h0 : i ≠ 0)
    (hi : i < 4294967296) (hp1 : INT_MIN + 10 ≤ prec) (hp2 : prec ≤ 9)
    (hm : m.Mapped buf ((padTo prec (padChar pad) (numeral 10 i)).length + 1)) :
    uitodec m i buf prec 0#8 pad
      = .ok (m.write buf (padTo prec (padChar pad) (numeral 10 i) ++ [0#8]),
          (padTo prec (padChar pad) (numeral 10 i)).length) := by
  by_cases h : 1000000000 ≤ i
  · have hlen : (numeral 10 i).length = 10 := by rw [numeral_ten h hi]; simp
    have hpad : padTo prec (padChar pad) (numeral 10 i) = numeral 10 i := by
      unfold padTo; rw [hlen, show prec.toNat - 10 = 0 by omega]; simp
    rw [hpad] at hm ⊢
    have := @uitodec_ten m i buf prec 0#8 pad h hi hp1 (by omega) (by simpa using hm)
    simpa using this
  · have hlen : (numeral 10 i).length = nd 10 i := by rw [numeral_eq, nd_eq h0]; simp
    have ho : padOut 0#8 (padChar pad) prec i = padTo prec (padChar pad) (numeral 10 i) := by
      unfold padOut padTo
      rw [sep_zero, group_zero, hlen, numeral_eq, digits0_eq h0]
      split
      · rw [show prec.toNat - nd 10 i = 0 by omega]; simp
      · rfl
    refine uitodec_small (trail := padChar pad) (by omega) hp1 hp2 rfl ?_ hm
    rw [ho, if_neg (by simp [padTo, numeral_ne_nil])]

example : uitodec cvBuf 87 100 4 0#8 48#8 = .ok (cvBuf.write 100 [48, 48, 56, 55, 0], 4) := by
  have := @C25_uitodec_partial cvBuf 87 100 4 48#8 (by decide) (by decide) (by decide) (by decide)
    (by decide +kernel)
  rwa [show padTo 4 (padChar 48#8) (numeral 10 87) = [48, 48, 56, 55] by decide +kernel] at this

/-- C25: no width requested: the digits alone, also for 0, grouped by threes if a separator is
given. -/
theorem C25_group_partial {m : Mem} {i buf : Nat} {prec : Int} {lim pad : Byte}
    (hi : i < 4294967296) (hp1 : INT_MIN + 10 ≤ prec) (hp2 : prec ≤ 0)
    (hm : m.Mapped buf ((group lim (numeral 10 i)).length + 1)) :
    uitodec m i buf prec lim pad
      = .ok (m.write buf (group lim (numeral 10 i) ++ [0#8]), (group lim (numeral 10 i)).length) := by
  by_cases h : 1000000000 ≤ i
  · exact uitodec_ten h hi hp1 (by omega) hm
  · refine uitodec_small (trail := padChar pad) (by omega) hp1 (by omega) rfl ?_ hm
    by_cases h0 : i = 0
    · subst h0
      have : padOut lim (padChar pad) prec 0 = [] := by
        unfold padOut; simp only [nd, digits0, if_true]
        rw [show prec.toNat = 0 by omega]; split <;> rfl
      rw [this, if_pos rfl]
      rw [show numeral 10 0 = [48#8] by decide +kernel]; rfl
    · have hpos : 0 < nd 10 i := by
        rw [nd_eq h0]; exact List.length_pos_iff.2 (digitsOf_ne_nil 10 i)
      have ho : padOut lim (padChar pad) prec i = group lim (numeral 10 i) := by
        unfold padOut; rw [if_pos (by omega), digits0_eq h0, numeral_eq]
      rw [ho, if_neg]
      have := numeral_ne_nil 10 i
      revert this
      cases numeral 10 i <;> simp [group]

example : uitodec cvBuf 4294967295 100 0 44#8 0#8
    = .ok (cvBuf.write 100 [52, 44, 50, 57, 52, 44, 57, 54, 55, 44, 50, 57, 53, 0], 13) := by
  have := @C25_group_partial cvBuf 4294967295 100 0 44#8 0#8 (by decide) (by decide) (by decide)
    (by decide +kernel)
  rwa [show group 44#8 (numeral 10 4294967295)
    = [52, 44, 50, 57, 52, 44, 57, 54, 55, 44, 50, 57, 53] by decide +kernel] at this

/-- The width 10, padded with blanks, for all numbers but 0. -/
theorem uitodec_width_ten {m : Mem} {i buf : Nat} {pad : Byte} (h0 : i ≠ 0) (hi : i < 4294967296) (hpad : padChar pad = 32#8)
    (hm : m.Mapped buf ((padTo 10 32#8 (numeral 10 i)).length + 1)) :
    uitodec m i buf 10 0#8 pad
      = .ok (m.write buf (padTo 10 32#8 (numeral 10 i) ++ [0#8]), (padTo 10 32#8 (numeral 10 i)).length) := by
  by_cases h : 1000000000 ≤ i
  · have hlen : (numeral 10 i).length = 10 := by rw [numeral_ten h hi]; simp
    have hp : padTo 10 32#8 (numeral 10 i) = numeral 10 i := by
      unfold padTo; rw [hlen]; rfl
    rw [hp] at hm ⊢
    have := @uitodec_ten m i buf 10 0#8 pad h hi (by decide) (by decide) (by simpa using hm)
    simpa using this
  · have hlen : (numeral 10 i).length = nd 10 i := by rw [numeral_eq, nd_eq h0]; simp
    have h9 : nd 10 i ≤ 9 := nd_le (by omega) (by norm_num; omega)
    have ho : padOut 0#8 32#8 9 i = padTo 9 32#8 (numeral 10 i) := by
      unfold padOut padTo
      rw [sep_zero, group_zero, hlen, numeral_eq, digits0_eq h0]
      split
      · rw [show (9 : Int).toNat - nd 10 i = 0 by omega]; simp
      · rfl
    have ht : padTo 10 32#8 (numeral 10 i) = 32#8 :: padTo 9 32#8 (numeral 10 i) := by
      unfold padTo
      rw [hlen, show (10 : Int).toNat - nd 10 i = ((9 : Int).toNat - nd 10 i) + 1 by simp; omega, List.replicate_succ]
      rfl
    have hm0 := hm
    rw [ht, List.length_cons] at hm
    obtain ⟨hs, hm'⟩ := store_step hm 32#8
    have htr : (if pad ≠ 0#8 then pad else 32#8) = 32#8 := by
      unfold padChar at hpad
      by_cases hz : pad = 0#8
      · simp [hz]
      · rw [if_neg hz] at hpad; simp [hpad]
    unfold uitodec
    rw [ckInt_ok (by decide) (by decide), if_neg h0]
    simp only [Res.ok_bind, uitodecMain]
    rw [if_neg (by omega), if_pos (by decide), hs, htr]
    simp only [Res.ok_bind]
    have := @uitodecLoop_pad 0#8 32#8 buf 9 (by omega) 9 (by omega) (by decide) (m.upd buf 32#8) 1 i (by norm_num; omega)
      (by rw [ho]; exact hm'.mono (by omega))
    rw [← decTable_nine, show (10 : Int) - 10 = 9 - ((9 : Nat) : Int) by decide, this, ho, ← write_cons, ← ht]
    simp only [Res.ok_bind]
    have he := @uitodecEnd_some m buf (padTo 10 32#8 (numeral 10 i)) (by rw [ht]; simp) hm0
    rw [ht, List.length_cons, Nat.add_comm] at he
    rw [ht, he]
    simp; omega

/-- A width of more than 10: no padding at all. -/
theorem uitodec_above {m : Mem} {i buf : Nat} {prec : Int} {pad : Byte} {out : List Byte} (h0 : i ≠ 0 ∧ i < 1000000000) (hp1 : 11 ≤ prec)
    (hp2 : prec ≤ INT_MAX - 9) (ho : out = numeral 10 i) (hm : m.Mapped buf (out.length + 1)) :
    uitodec m i buf prec 0#8 pad = .ok (m.write buf (out ++ [0#8]), out.length) := by
  have hout : out = group 0#8 (dtxt (digits0 10 i)) := by rw [ho, group_zero, numeral_eq, digits0_eq h0.1]
  have hne : out ≠ [] := by rw [ho]; exact numeral_ne_nil 10 i
  unfold uitodec
  rw [ckInt_ok (by omega) (by omega), if_neg h0.1]
  simp only [Res.ok_bind, uitodecMain]
  rw [if_neg (by omega), if_neg (by omega), ckInt_ok (by omega) (by omega)]
  simp only [Res.ok_bind]
  have := @uitodecLoop_wide 0#8 (if pad ≠ 0#8 then pad else 32#8) buf 9 (by omega) (prec - 10 + 1) (by omega) (by push_cast; omega) m 0 i
    (by norm_num; omega) (by rw [← hout]; exact hm.mono (by omega))
  rw [← decTable_nine, this, ← hout]
  simp only [Res.ok_bind]
  have he := uitodecEnd_some hne hm
  simpa using he

example : uitodec cvBuf 87 100 10 0#8 0#8 = .ok (cvBuf.write 100 [32, 32, 32, 32, 32, 32, 32, 32, 56, 55, 0], 10) := by
  have := @uitodec_width_ten cvBuf 87 100 0#8 (by decide) (by decide) (by decide) (by decide +kernel)
  rwa [show padTo 10 32#8 (numeral 10 87) = [32, 32, 32, 32, 32, 32, 32, 32, 56, 55] by decide +kernel] at this

/-- C25 fails for the number 0 with a width: `uitodec(0, buf, 1, 0, 0)` writes a blank and no digit. -/
theorem C25_uitodec_refuted : ¬ C25_uitodec_full := by
  intro h
  have h := h cvBuf 0 100 1 0#8 (by decide) (by decide) (by decide) (by decide +kernel)
  obtain ⟨m', e, h1⟩ : ∃ m', uitodec cvBuf 0 100 1 0#8 0#8 = .ok (m', 1) ∧ m' 100 = some 32#8 :=
    ⟨_, rfl, by decide +kernel⟩
  rw [e] at h
  have h2 := congrArg (fun r => match r with | Res.ok (m, _) => m 100 | _ => none) h
  revert h2
  simp only [h1]
  decide +kernel

/-- C25 for the width 10: a number below 10^9 gets a blank, then the padding for 9 characters. With blanks as padding that is
the width 10. -/
theorem C25_width_ten_partial {m : Mem} {i buf : Nat} {pad : Byte} (h0 : i ≠ 0) (hi : i < 1000000000) (hm : m.Mapped buf 11) :
    uitodec m i buf 10 0#8 pad = .ok (m.write buf (32#8 :: padTo 9 (padChar pad) (numeral 10 i) ++ [0#8]), 10) ∧
    (padChar pad = 32#8 → 32#8 :: padTo 9 (padChar pad) (numeral 10 i) = padTo 10 32#8 (numeral 10 i)) := by
  have hlen : (numeral 10 i).length = nd 10 i := by rw [numeral_eq, nd_eq h0]; simp
  have ho : padOut 0#8 (padChar pad) 9 i = padTo 9 (padChar pad) (numeral 10 i) := by
    unfold padOut padTo
    rw [sep_zero, group_zero, hlen, numeral_eq, digits0_eq h0]
    split
    · rename_i h
      rw [show Int.toNat 9 - nd 10 i = 0 by omega]; simp
    · rfl
  have hn9 : (numeral 10 i).length ≤ 9 := by
    rw [hlen]
    exact nd_le (by omega) (by norm_num; omega)
  have hl : (padTo 9 (padChar pad) (numeral 10 i)).length = 9 := by
    unfold padTo
    rw [List.length_append, List.length_replicate]
    omega
  refine ⟨?_, ?_⟩
  · unfold uitodec
    rw [ckInt_ok (by decide) (by decide), if_neg h0]
    simp only [Res.ok_bind, uitodecMain]
    rw [if_neg (by omega), if_pos (by decide)]
    obtain ⟨hs, hm'⟩ := store_step hm 32#8
    have ht' : (if pad ≠ 0#8 then pad else 32#8) = padChar pad := by unfold padChar; split <;> simp_all
    rw [hs, ht', ← decTable_nine]
    simp only [Res.ok_bind]
    have := @uitodecLoop_pad 0#8 (padChar pad) buf 9 (by omega) 9 (by omega) (by omega) (m.upd buf 32#8) 1 i (by norm_num; omega)
      (by rw [ho, hl]; exact hm'.mono (by omega))
    rw [show (9 : Int) - ((9 : Nat) : Int) = 10 - 10 by omega, ho] at this
    rw [this]
    simp only [Res.ok_bind]
    have he := @uitodecEnd_some m buf (32#8 :: padTo 9 (padChar pad) (numeral 10 i)) (by simp) (hm.mono (by rw [List.length_cons, hl]))
    rw [write_cons, List.length_cons, hl] at he
    rw [hl]
    exact he
  · intro hp
    rw [hp]
    unfold padTo
    rw [show Int.toNat 10 - (numeral 10 i).length = (Int.toNat 9 - (numeral 10 i).length) + 1 by omega, List.replicate_succ]
    rfl

/-- 12345 in 10 characters. -/
example : uitodec cvBuf 12345 100 10 0#8 0#8 = .ok (cvBuf.write 100 [32, 32, 32, 32, 32, 49, 50, 51, 52, 53, 0], 10) := by
  have h := C25_width_ten_partial (m := cvBuf) (i := 12345) (buf := 100) (pad := 0#8) (by decide) (by decide) (by decide +kernel)
  rw [h.2 (by decide), show padTo 10 32#8 (numeral 10 12345) = [32, 32, 32, 32, 32, 49, 50, 51, 52, 53] by decide +kernel] at h
  exact h.1

/-- C25 fails for the width 10 with zeros: the first character is a blank. -/
theorem C25_width_ten_refuted : ¬ ∀ (m : Mem) (i buf : Nat) (pad : Byte), i ≠ 0 → i < 1000000000 → m.Mapped buf 11 →
    uitodec m i buf 10 0#8 pad = .ok (m.write buf (padTo 10 (padChar pad) (numeral 10 i) ++ [0#8]), 10) := by
  intro h
  have h1 := h cvBuf 5 100 48#8 (by decide) (by decide) (by decide +kernel)
  rw [(C25_width_ten_partial (m := cvBuf) (i := 5) (buf := 100) (pad := 48#8) (by decide) (by decide) (by decide +kernel)).1] at h1
  have h2 := congrArg (fun r => match r with | Res.ok (m, _) => m 100 | _ => none) h1
  revert h2
  decide +kernel

/-- C25 also fails for non-zero numbers: a width above 10 is ignored. -/
theorem C25_wide_refuted : ¬ ∀ (m : Mem) (i buf : Nat) (prec : Int), i ≠ 0 → i < 4294967296 →
    0 ≤ prec → prec ≤ INT_MAX → m.Mapped buf ((padTo prec 32#8 (numeral 10 i)).length + 1) →
    ∃ m', uitodec m i buf prec 0#8 0#8 = .ok (m', (padTo prec 32#8 (numeral 10 i)).length) := by
  intro h
  obtain ⟨m', h⟩ := h cvBuf 5 100 12 (by decide) (by decide) (by decide) (by decide) (by decide +kernel)
  obtain ⟨m'', e⟩ : ∃ m'', uitodec cvBuf 5 100 12 0#8 0#8 = .ok (m'', 1) := ⟨_, rfl⟩
  rw [e] at h
  simp only [Res.ok.injEq, Prod.mk.injEq] at h
  have h2 := h.2
  revert h2
  decide +kernel

/-- C25: `itodec` without width: sign and digits of every `int` except INT_MIN. -/
theorem C25_itodec_partial {m : Mem} {i : Int} {buf : Nat} {prec : Int} {pad : Byte}
    (h1 : INT_MIN < i) (h2 : i ≤ INT_MAX) (hp1 : INT_MIN + 10 ≤ prec) (hp2 : prec ≤ 0)
    (hm : m.Mapped buf ((decimal i).length + 1)) :
    itodec m i buf prec 0#8 pad
      = .ok (m.write buf (decimal i ++ [0#8]), (decimal i).length) := by
  unfold itodec
  by_cases hn : i < 0
  · rw [decimal, if_pos hn] at hm ⊢
    obtain ⟨hs, hm'⟩ := store_step hm 45#8
    rw [if_pos hn, hs]
    simp only [Res.ok_bind]
    rw [ckInt_ok (by omega) (by omega)]
    simp only [Res.ok_bind]
    rw [show (-i).toNat = i.natAbs by omega]
    have := @C25_group_partial (m.upd buf 45#8) i.natAbs (buf + 1) prec 0#8 pad (by omega) hp1 hp2
      (by simpa using hm')
    rw [this]
    simp [write_cons]
  · rw [decimal, if_neg hn] at hm ⊢
    rw [if_neg hn, show i.toNat = i.natAbs by omega]
    have := @C25_group_partial m i.natAbs buf prec 0#8 pad (by omega) hp1 hp2 (by simpa using hm)
    simpa using this

example : itodec cvBuf (-2147483647) 100 0 0#8 0#8
    = .ok (cvBuf.write 100 [45, 50, 49, 52, 55, 52, 56, 51, 54, 52, 55, 0], 11) := by
  have := @C25_itodec_partial cvBuf (-2147483647) 100 0 0#8 (by decide) (by decide) (by decide)
    (by decide) (by decide +kernel)
  rwa [show decimal (-2147483647) = [45, 50, 49, 52, 55, 52, 56, 51, 54, 52, 55] by decide +kernel]
    at this

/-- C25: `itodec` with a width: sign, padding, digits. -/
theorem C25_itodec_width_partial {m : Mem} {i : Int} {buf : Nat} {prec : Int} {pad : Byte} (h0 : i ≠ 0)
    (h1 : INT_MIN < i) (h2 : i ≤ INT_MAX) (hp1 : INT_MIN + 10 ≤ prec) (hp2 : prec ≤ 9)
    {out : List Byte} (ho : out = (if i < 0 then [45#8] else []) ++
      padTo prec (padChar pad) (numeral 10 i.natAbs))
    (hm : m.Mapped buf (out.length + 1)) :
    itodec m i buf prec 0#8 pad = .ok (m.write buf (out ++ [0#8]), out.length) := by
  subst ho
  unfold itodec
  by_cases hn : i < 0
  · simp only [hn, if_true, List.singleton_append] at hm ⊢
    obtain ⟨hs, hm'⟩ := store_step hm 45#8
    rw [hs]
    simp only [Res.ok_bind]
    rw [ckInt_ok (by omega) (by omega)]
    simp only [Res.ok_bind]
    rw [show (-i).toNat = i.natAbs by omega, C25_uitodec_partial (by omega) (by omega) hp1 hp2 hm']
    simp [write_cons]
  · simp only [hn, if_false, List.nil_append] at hm ⊢
    rw [show i.toNat = i.natAbs by omega, C25_uitodec_partial (by omega) (by omega) hp1 hp2 hm]

example : itodec cvBuf (-42) 100 5 0#8 0#8
    = .ok (cvBuf.write 100 [45, 32, 32, 32, 52, 50, 0], 6) := by
  have := @C25_itodec_width_partial cvBuf (-42) 100 5 0#8 (by decide) (by decide) (by decide)
    (by decide) (by decide) [45, 32, 32, 32, 52, 50] (by decide +kernel) (by decide +kernel)
  exact this

/-- C25 fails for INT_MIN: the negation `-i` overflows. -/
theorem C25_itodec_min_refuted :
    ¬ ∀ (m : Mem) (i : Int) (buf : Nat), INT_MIN ≤ i → i ≤ INT_MAX →
      m.Mapped buf ((decimal i).length + 1) →
      itodec m i buf 0 0#8 0#8 = .ok (m.write buf (decimal i ++ [0#8]), (decimal i).length) := by
  intro h
  have := h cvBuf INT_MIN 100 (by decide) (by decide) (by decide +kernel)
  rw [show itodec cvBuf INT_MIN 100 0 0#8 0#8 = .ub from rfl] at this
  cases this

/-! ### C26 -/

/-- C26 for `ultodec`, for all values and precisions (leading zeros up to 20 digits). -/
def C26_ultodec_full : Prop :=
  ∀ (m : Mem) (ui buf : Nat) (prec : Int), ui < 18446744073709551616 → 0 ≤ prec → prec ≤ 20 →
    m.Mapped buf ((padTo prec 48#8 (numeral 10 ui)).length + 1) →
    ultodec m ui buf prec 0#8
      = .ok (m.write buf (padTo prec 48#8 (numeral 10 ui) ++ [0#8]),
          (padTo prec 48#8 (numeral 10 ui)).length)

theorem fix_padTo {ui : Nat} {prec : Int} (h : ui ≠ 0 ∨ 1 ≤ prec) :
    dtxt (fixDigits 10 (max prec.toNat (nd 10 ui)) ui) = padTo prec 48#8 (numeral 10 ui) :=
  fixDigits_padTo (by omega) false h

/-- C26: every 64 bit number and every precision up to 20, except the number 0 with precision 0
(or less). -/
theorem C26_ultodec_partial {m : Mem} {ui buf : Nat} {prec : Int} (hui : ui < 18446744073709551616)
    (hp : prec ≤ 20) (h : ui ≠ 0 ∨ 1 ≤ prec)
    (hm : m.Mapped buf ((padTo prec 48#8 (numeral 10 ui)).length + 1)) :
    ultodec m ui buf prec 0#8
      = .ok (m.write buf (padTo prec 48#8 (numeral 10 ui) ++ [0#8]),
          (padTo prec 48#8 (numeral 10 ui)).length) := by
  have hf := fix_padTo h
  by_cases hb : 10000000000000000000 ≤ ui ∨ 20 ≤ prec
  · refine ultodec_big hb hui ?_ hm
    rw [group_zero, ← hf]
    congr 2
    have h20 := @nd_le 10 20 ui (by omega) (by norm_num; omega)
    rcases hb with hb | hb
    · have := @nd_big 10 19 ui (by omega) (by norm_num; omega) (by norm_num; omega); omega
    · omega
  · refine ultodec_small (by omega) (by omega) ?_ hm
    rw [sep_zero, hf]

example : ultodec cvBuf 18446744073709551615 100 0 0#8 = .ok (cvBuf.write 100
    ([49, 56, 52, 52, 54, 55, 52, 52, 48, 55, 51, 55, 48, 57, 53, 53, 49, 54, 49, 53] ++ [0]), 20) := by
  have := @C26_ultodec_partial cvBuf 18446744073709551615 100 0 (by decide) (by decide)
    (by decide) (by decide +kernel)
  rwa [show padTo 0 48#8 (numeral 10 18446744073709551615) = [49, 56, 52, 52, 54, 55, 52, 52, 48, 55,
    51, 55, 48, 57, 53, 53, 49, 54, 49, 53] by decide +kernel] at this

/-- C26 fails for 0: with precision 0 nothing at all is written. -/
theorem C26_ultodec_refuted : ¬ C26_ultodec_full := by
  intro h
  have h := h cvBuf 0 100 0 (by decide) (by decide) (by decide) (by decide +kernel)
  rw [ultodec_small (out := []) (by decide) (by decide) (by decide +kernel) (by decide +kernel)] at h
  simp only [Res.ok.injEq, Prod.mk.injEq] at h
  have h2 := h.2
  revert h2
  decide +kernel

theorem sep_group {c : Byte} {l : List Byte} (h : l.length % 3 ≠ 0) : sep c l = group c l := by
  cases l with
  | nil => rfl
  | cons x l => rw [sep, group, if_neg (by rintro ⟨_, h'⟩; exact h (by simpa using h'))]; rfl

/-- C26: a number whose number of digits is no multiple of three is grouped by threes. -/
theorem C26_group_partial {m : Mem} {ui buf : Nat} {prec : Int} {lim : Byte} (hui : ui < 18446744073709551616) (hp : prec ≤ 1)
    (h : ui ≠ 0 ∨ prec = 1) (h3 : (numeral 10 ui).length % 3 ≠ 0)
    (hm : m.Mapped buf ((group lim (numeral 10 ui)).length + 1)) :
    ultodec m ui buf prec lim = .ok (m.write buf (group lim (numeral 10 ui) ++ [0#8]), (group lim (numeral 10 ui)).length) := by
  have hf := @fix_padTo ui prec (by omega)
  have hpos := List.length_pos_iff.2 (numeral_ne_nil 10 ui)
  have hpad : padTo prec 48#8 (numeral 10 ui) = numeral 10 ui := by
    unfold padTo; rw [show prec.toNat - (numeral 10 ui).length = 0 by omega]; simp
  rw [hpad] at hf
  by_cases hb : 10000000000000000000 ≤ ui
  · refine ultodec_big (Or.inl hb) hui ?_ hm
    rw [← hf]
    congr 3
    have h20 := @nd_le 10 20 ui (by omega) (by norm_num; omega)
    have := @nd_big 10 19 ui (by omega) (by norm_num; omega) (by norm_num; omega); omega
  · refine ultodec_small (by omega) (by omega) ?_ hm
    rw [hf, sep_group h3]

example : ultodec cvBuf 1234567 100 0 44#8 = .ok (cvBuf.write 100 [49, 44, 50, 51, 52, 44, 53, 54, 55, 0], 9) := by
  have := @C26_group_partial cvBuf 1234567 100 0 44#8 (by decide) (by decide) (by decide) (by decide +kernel) (by decide +kernel)
  rwa [show group 44#8 (numeral 10 1234567) = [49, 44, 50, 51, 52, 44, 53, 54, 55] by decide +kernel] at this

/-- With a separator the digits are not grouped properly: a number of 3, 6, … digits starts with the
separator.  `ultodec(123, buf, 0, ',')` writes ",123". -/
theorem C26_group_refuted : ¬ ∀ (m : Mem) (ui buf : Nat) (lim : Byte), ui ≠ 0 →
    ui < 18446744073709551616 → m.Mapped buf 32 →
    ultodec m ui buf 0 lim
      = .ok (m.write buf (group lim (numeral 10 ui) ++ [0#8]), (group lim (numeral 10 ui)).length) := by
  intro h
  have h := h (object 100 (List.replicate 40 7#8)) 123 100 44#8 (by decide) (by decide)
    (by decide +kernel)
  rw [ultodec_small (out := [44, 49, 50, 51]) (by decide) (by decide) (by decide +kernel)
    (by decide +kernel)] at h
  simp only [Res.ok.injEq, Prod.mk.injEq] at h
  have h2 := h.2
  revert h2
  decide +kernel

/-- C26: `ltodec` of every `long` except 0 and LONG_MIN. -/
theorem C26_ltodec_partial {m : Mem} {i : Int} {buf : Nat} {prec : Int} (h0 : i ≠ 0)
    (h1 : -9223372036854775808 < i) (h2 : i ≤ 9223372036854775807) (hp2 : prec ≤ 0)
    (hm : m.Mapped buf ((decimal i).length + 1)) :
    ltodec m i buf prec 0#8 = .ok (m.write buf (decimal i ++ [0#8]), (decimal i).length) := by
  have hpad : padTo prec 48#8 (numeral 10 i.natAbs) = numeral 10 i.natAbs := by
    unfold padTo; rw [show prec.toNat - (numeral 10 i.natAbs).length = 0 by omega]; simp
  unfold ltodec
  by_cases hn : i < 0
  · rw [decimal, if_pos hn] at hm ⊢
    obtain ⟨hs, hm'⟩ := store_step hm 45#8
    rw [if_pos hn, hs]
    simp only [Res.ok_bind]
    rw [ckLong, if_pos (by omega)]
    simp only [Res.ok_bind]
    rw [show (-i).toNat = i.natAbs by omega]
    have := @C26_ultodec_partial (m.upd buf 45#8) i.natAbs (buf + 1) prec (by omega) (by omega)
      (Or.inl (by omega)) (by rw [hpad]; exact hm')
    rw [this, hpad]
    simp [write_cons]
  · rw [decimal, if_neg hn] at hm ⊢
    rw [if_neg hn, show i.toNat = i.natAbs by omega]
    have := @C26_ultodec_partial m i.natAbs buf prec (by omega) (by omega)
      (Or.inl (by omega)) (by rw [hpad]; exact hm)
    rw [this, hpad]

example : ltodec cvBuf (-9007199254740993) 100 0 0#8 = .ok (cvBuf.write 100
    ([45, 57, 48, 48, 55, 49, 57, 57, 50, 53, 52, 55, 52, 48, 57, 57, 51] ++ [0]), 17) := by
  have := @C26_ltodec_partial cvBuf (-9007199254740993) 100 0 (by decide) (by decide) (by decide)
    (by decide) (by decide +kernel)
  rwa [show decimal (-9007199254740993) = [45, 57, 48, 48, 55, 49, 57, 57, 50, 53, 52, 55, 52, 48, 57,
    57, 51] by decide +kernel] at this

/-- C26 fails for LONG_MIN: the negation overflows. -/
theorem C26_ltodec_min_refuted :
    ¬ ∀ (m : Mem) (i : Int) (buf : Nat), i ≠ 0 → -9223372036854775808 ≤ i → i ≤ 9223372036854775807 →
      m.Mapped buf ((decimal i).length + 1) →
      ltodec m i buf 0 0#8 = .ok (m.write buf (decimal i ++ [0#8]), (decimal i).length) := by
  intro h
  have := h cvBuf (-9223372036854775808) 100 (by decide) (by decide) (by decide) (by decide +kernel)
  rw [show ltodec cvBuf (-9223372036854775808) 100 0 0#8 = .ub from rfl] at this
  cases this

end Minilib

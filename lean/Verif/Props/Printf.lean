import Verif.Lemmas.Printf
import Verif.Props.Radix
import Verif.Props.Dtodec
/-
Properties C37 and C38: vsnprintf and snprintf.
-/

set_option autoImplicit false

namespace Minilib
open Mem Spec

/-! ### C37 -/

/-- C37 for every format of the grammar. -/
def C37_full : Prop :=
  ∀ (junk : Nat → Byte) (m : Mem) (buf size fmt : Nat) (its : List Item), PfCall m buf size fmt its →
    ∃ (l : List Byte) (ret : Int) (raised : Bool),
      vsnprintf junk m buf size fmt (fmtArgs its) = .ok (m.write buf l, ret, raised) ∧ l.length ≤ size

theorem toInt32_bounds (v : BitVec 32) : -2147483648 ≤ v.toInt ∧ v.toInt ≤ 2147483647 := by
  have h1 := BitVec.le_toInt v
  have h2 := @BitVec.toInt_lt 32 v
  norm_num at h1 h2
  omega

theorem toInt64_bounds (v : BitVec 64) : -9223372036854775808 ≤ v.toInt ∧ v.toInt ≤ 9223372036854775807 := by
  have h1 := BitVec.le_toInt v
  have h2 := @BitVec.toInt_lt 64 v
  norm_num at h1 h2
  omega

theorem toPf_prec (fl : FmtFlags) : (toPf fl).prec = max (fl.width : Int) 1 := by
  unfold PfFlags.prec toPf
  simp only
  split <;> omega

/-- A negative number of at most nine digits with separators takes at most 13 characters. -/
theorem itodec_sep {v : Int} {w : Nat} {pad : Byte} (h1 : -1000000000 < v) (h2 : v < 0) (hw : w ≤ 9) :
    ∃ l : List Byte, l.length ≤ 13 ∧ Converts (fun m d => itodec m v d (w : Int) 46#8 pad) l := by
  obtain ⟨trail, htr⟩ : ∃ trail : Byte, trail = if pad = 0#8 then 32#8 else pad := ⟨_, rfl⟩
  obtain ⟨out, hout⟩ : ∃ out, out = (if padOut 46#8 trail (w : Int) (-v).toNat = [] then [48#8]
    else padOut 46#8 trail (w : Int) (-v).toNat) := ⟨_, rfl⟩
  have hnd : nd 10 (-v).toNat ≤ 9 := nd_le (by omega) (by omega)
  have hlen : out.length ≤ 12 := by
    rw [hout]
    have hp : (padOut 46#8 trail (w : Int) (-v).toNat).length ≤ 12 := by
      unfold padOut
      split
      · have := group_length 46#8 (dtxt (digits0 10 (-v).toNat))
        rw [dtxt_length, digits0_length] at this
        omega
      · have := sep_length 46#8 (List.replicate ((w : Int).toNat - nd 10 (-v).toNat) trail ++ dtxt (digits0 10 (-v).toNat))
        simp only [List.length_append, List.length_replicate, dtxt_length, digits0_length] at this
        omega
    split
    · simp
    · exact hp
  refine ⟨45#8 :: out, by simp; omega, fun m d hm => ?_⟩
  show itodec m v d w 46#8 pad = _
  unfold itodec
  rw [if_pos h2]
  obtain ⟨a1, b1⟩ := store_step (n := out.length + 1) hm 45#8
  rw [a1]
  simp only [Res.ok_bind]
  rw [ckInt_ok (by omega) (by omega)]
  simp only [Res.ok_bind]
  rw [uitodec_small (by omega) (by omega) (by omega) htr hout b1, List.cons_append, write_cons]
  simp only [Res.ok_bind, List.length_cons]
  show Res.ok _ = _
  congr 2

theorem nd_numeral (n : Nat) : nd 2 n ≤ (numeral 2 n).length := by
  by_cases h0 : n = 0
  · subst h0; simp [nd]
  · rw [nd_eq h0, numeral, List.length_map]

theorem binOut_pos (i : BitVec 32) (prec groups : Int) : 1 ≤ (binOut i prec groups).length := by
  unfold binOut
  split
  · simp
  · rename_i h; exact List.length_pos_iff.2 h

theorem groups_bin (fl : FmtFlags) :
    (if (toPf fl).groups ≠ 0 then (toPf fl).groups else 32) = ((binGroup fl : Nat) : Int) := by
  unfold binGroup toPf
  by_cases h : fl.groups = 0 <;> simp [h]

/-- Every safe item yields some text that fits the space asked for. -/
theorem itemOut_exists (junk : Nat → Byte) (it : Item) (hok : it.Ok) (hs : SafeItem it) :
    ∃ t, ItemOut junk it t := by
  cases it with
  | lit c => exact ⟨_, rfl⟩
  | conv mods z ds k =>
    have hw := hok.2.2.2
    generalize hfl : convFlags mods z ds k = fl at hw
    have hp := toPf_prec fl
    show ∃ t, ConvOut junk (convFlags mods z ds k) k t
    rw [hfl]
    cases k with
    | pct => exact ⟨_, rfl⟩
    | dec v =>
      obtain ⟨b1, b2⟩ := toInt32_bounds v
      obtain ⟨s1, s2⟩ : _ ∧ _ := hs
      rw [hfl] at s2
      by_cases hsep : fl.sep = true
      · by_cases hneg : v.toInt < 0
        · obtain ⟨l, h1, h2⟩ := @itodec_sep v.toInt fl.width (toPf fl).pad (by have := s2 hsep; omega) hneg (by have := s2 hsep; omega)
          refine ⟨l, h1, ?_⟩
          rw [show (toPf fl).sep = 46#8 by simp [toPf, hsep]]
          exact h2
        · obtain ⟨l, h1, h2⟩ := itodec_exists v.toInt (toPf fl).padding (toPf fl).sep (toPf fl).pad (by omega) (by omega)
            (by simp [toPf]) (by simp only [toPf]; omega)
          refine ⟨l, ?_, h2⟩
          rw [if_neg hneg] at h1
          split at h1 <;> omega
      · obtain ⟨l, h1, h2⟩ := itodec_exists v.toInt (toPf fl).padding (toPf fl).sep (toPf fl).pad (by omega) (by omega)
          (by simp [toPf]) (by simp only [toPf]; omega)
        refine ⟨l, ?_, h2⟩
        rw [if_pos (by simp [toPf, hsep] : (toPf fl).sep = 0#8)] at h1
        split at h1 <;> omega
    | udec v =>
      obtain ⟨l, h1, _, h2⟩ := uitodec_exists v.toNat (toPf fl).prec (toPf fl).sep (toPf fl).pad (by omega) (by omega)
      refine ⟨l, ?_, h2⟩
      split at h1 <;> omega
    | ldec v =>
      obtain ⟨b1, b2⟩ := toInt64_bounds v
      have s1 : v.toInt ≠ -9223372036854775808 := hs
      obtain ⟨l, h1, h2⟩ := ltodec_exists v.toInt (toPf fl).prec (toPf fl).sep (by omega) (by omega)
      exact ⟨l, h1, h2⟩
    | uldec v =>
      obtain ⟨l, h1, h2⟩ := ultodec_exists v.toNat (toPf fl).prec (toPf fl).sep v.isLt
      exact ⟨l, by omega, h2⟩
    | hex v =>
      obtain ⟨l, h1, h2⟩ := itohex_exists v (toPf fl).padding 0 (by simp [toPf]) (by simp only [toPf]; omega)
      exact ⟨l, h1, h2⟩
    | HEX v =>
      obtain ⟨l, h1, h2⟩ := itohex_exists v (toPf fl).padding 1 (by simp [toPf]) (by simp only [toPf]; omega)
      exact ⟨l, h1, h2⟩
    | oct v =>
      obtain ⟨b1, b2⟩ := toInt32_bounds v
      have s1 : v.toInt ≠ -2147483648 := hs
      obtain ⟨l, h1, h2⟩ := itooct_exists junk v.toInt (by omega) (by omega)
      exact ⟨l, h1, h2⟩
    | bin v =>
      have s1 : binCount (convFlags mods z ds (.bin v)) v +
        binCount (convFlags mods z ds (.bin v)) v / binGroup (convFlags mods z ds (.bin v)) + 1 ≤ 32 := hs
      rw [hfl] at s1
      refine ⟨binOut v (max fl.width 1 : Nat) (binGroup fl), binOut_pos _ _ _, ?_, ?_⟩
      · refine Nat.le_trans (binOut_length (K := binCount fl v) ?_ ?_ ?_) s1
        · unfold binGroup; split <;> omega
        · have := nd_numeral v.toNat
          unfold binCount; split <;> omega
        · have := List.length_pos_iff.2 (numeral_ne_nil 2 v.toNat)
          intro h; unfold binCount; rw [if_pos (by omega)]; omega
      · rw [hp, groups_bin, show max (fl.width : Int) 1 = ((max fl.width 1 : Nat) : Int) by omega]
        exact itobin_text (by omega) (by omega)
    | str p s => exact ⟨_, rfl⟩
    | chr v => exact ⟨_, rfl⟩
    | dbl d =>
      obtain ⟨s1, s2⟩ : _ ∧ _ := hs
      rw [hfl] at s2
      obtain ⟨t, h1, h2⟩ := dtodec_nine s1
      refine ⟨t, h1, ?_⟩
      rw [show (if (toPf fl).padding = 0 then (9 : Int) else (toPf fl).padding) = 9 by rcases s2 with h | h <;> simp [toPf, h]]
      exact h2

theorem forall2_exists {α β : Type} {R : α → β → Prop} : ∀ {l : List α}, (∀ x ∈ l, ∃ y, R x y) →
    ∃ ys : List β, List.Forall₂ R l ys := by
  intro l
  induction l with
  | nil => intro _; exact ⟨[], .nil⟩
  | cons x l ih =>
    intro h
    obtain ⟨y, hy⟩ := h x (by simp)
    obtain ⟨ys, hys⟩ := ih (fun z hz => h z (by simp [hz]))
    exact ⟨y :: ys, .cons hy hys⟩

/-- C37: for every buffer size from 1 on, every format of the grammar and all arguments, except for the
conversions named in `SafeItem`: nothing outside of `buf[0..size)` is written.  Either no signal is raised,
and the return value is the number of bytes in front of a NUL inside the buffer, or SIGSEGV is raised (and the
return value is not positive). -/
theorem C37_vsnprintf_partial {junk : Nat → Byte} {m : Mem} {buf size fmt : Nat} {its : List Item}
    (hc : PfCall m buf size fmt its) (hs : ∀ it ∈ its, SafeItem it) :
    (∃ out : List Byte, out.length < size ∧
      vsnprintf junk m buf size fmt (fmtArgs its) = .ok (m.write buf (out ++ [0#8]), (out.length : Int), false)) ∨
    (∃ (l : List Byte) (b : Nat), l.length ≤ size ∧ b ≤ size ∧
      vsnprintf junk m buf size fmt (fmtArgs its) = .ok (m.write buf l, -(b : Int), true)) := by
  obtain ⟨ts, hts⟩ := forall2_exists (fun it hit => itemOut_exists junk it (hc.items it hit).1 (hs it hit))
  have hpad : ∀ it ∈ its, NoPad it := by
    intro it hit
    have := hs it hit
    revert this
    unfold SafeItem NoPad
    split <;> simp_all
  rcases vsnprintf_run hc.mapped hc.size_pos hts hc.items (Or.inl hpad) hc.format hc.disjoint with ⟨h1, h2⟩ | ⟨l, b, h1, h2, _, h3⟩
  · exact Or.inl ⟨_, h2, h1⟩
  · exact Or.inr ⟨l, b, h1, h2, h3⟩

/-- A memory with a format at 10, a string at 40 and a buffer at 100, for the examples. -/
def pfMem (fmt s : List Byte) (size : Nat) : Mem :=
  objects [(10, fmt), (40, s), (100, List.replicate size 7#8)]

instance (k : Conv) (l : Bool) : Decidable (k.long l) := by
  cases k <;> simp only [Conv.long] <;> infer_instance
instance (it : Item) : Decidable it.Ok := by
  cases it <;> simp only [Item.Ok] <;> infer_instance
instance (m : Mem) (buf size : Nat) (it : Item) : Decidable (it.StrOk m buf size) := by
  unfold Item.StrOk; split <;> infer_instance
instance (it : Item) : Decidable (SafeItem it) := by
  unfold SafeItem; split <;> infer_instance

/-- The conditions on a call, from a check. -/
theorem _root_.Spec.PfCall.of_check {m : Mem} {buf size fmt : Nat} {its : List Item} (h1 : 0 < size) (h2 : m.Mapped buf size)
    (h3 : ∀ it ∈ its, it.Ok ∧ it.StrOk m buf size) (h4 : m.Holds fmt (fmtText its ++ [0#8]))
    (h5 : fmt + (fmtText its).length < buf ∨ buf + size ≤ fmt) : PfCall m buf size fmt its := ⟨h1, h2, h3, h4, h5⟩

/-- `snprintf(buf, 40, "a%05d, %s", 42, "xy")` meets the hypotheses of `C37_vsnprintf_partial`. -/
example : PfCall (pfMem [97, 37, 48, 53, 100, 44, 32, 37, 115, 0] [120, 121, 0] 40) 100 40 10
    [.lit 97#8, .conv [] true [5] (.dec 42#32), .lit 44#8, .lit 32#8, .conv [] false [] (.str 40 [120#8, 121#8])] ∧
    ∀ it ∈ [Item.lit 97#8, .conv [] true [5] (.dec 42#32), .lit 44#8, .lit 32#8, .conv [] false [] (.str 40 [120#8, 121#8])],
      SafeItem it :=
  ⟨.of_check (by decide) (by decide +kernel) (by decide +kernel) (by decide +kernel) (by decide +kernel), by decide +kernel⟩

/-- `snprintf(buf, 40, "%(4)b", 5)` too. -/
example : PfCall (pfMem [37, 40, 52, 41, 98, 0] [0] 40) 100 40 10 [.conv [.group false [] [4]] false [] (.bin 5#32)] ∧
    SafeItem (.conv [.group false [] [4]] false [] (.bin 5#32)) :=
  ⟨.of_check (by decide) (by decide +kernel) (by decide +kernel) (by decide +kernel) (by decide +kernel), by decide +kernel⟩

/-- The padding of a string is written without any check: `snprintf(buf, 4, "%9s", "")` writes 9 bytes. -/
theorem C37_strpad_refuted : ¬ C37_full := by
  intro h
  have hc : PfCall (pfMem [37, 57, 115, 0] [0] 4) 100 4 10 [.conv [] false [9] (.str 40 [])] :=
    .of_check (by decide) (by decide +kernel) (by decide +kernel) (by decide +kernel) (by decide +kernel)
  obtain ⟨l, ret, raised, h, _⟩ := h (fun _ => 0#8) _ _ _ _ _ hc
  rw [vsnprintf_ub (mods := []) (last := ⟨false, [9], 115#8⟩) (by decide) (by decide +kernel) (by decide) (by decide)
    (by decide +kernel) (fun a => ?_)] at h
  · cases h
  · show pfStr _ _ _ _ _ _ = _
    unfold pfStr
    have hl : strlen (pfMem [37, 57, 115, 0] [0] 4) 40 = .ok 0 := by
      rw [strlen, if_neg (by decide), strlenLoop, load_some (b := 0#8) (by decide +kernel)]; rfl
    show (strlen (pfMem [37, 57, 115, 0] [0] 4) 40 >>= _) = _
    rw [hl]
    rfl

/-- The check for %d allows for 13 characters and a NUL, but a grouped number may take 14:
`snprintf(buf, 14, "%'d", -2000000000)` writes "-2.000.000.000" and a NUL, 15 bytes. -/
theorem C37_group_refuted : ¬ C37_full := by
  intro h
  have hc : PfCall (pfMem [37, 39, 100, 0] [0] 14) 100 14 10 [.conv [.chunk ⟨false, [], 39#8⟩] false [] (.dec (-2000000000#32))] :=
    .of_check (by decide) (by decide +kernel) (by decide +kernel) (by decide +kernel) (by decide +kernel)
  obtain ⟨l, ret, raised, h, _⟩ := h (fun _ => 0#8) _ _ _ _ _ hc
  rw [vsnprintf_ub (mods := [.chunk ⟨false, [], 39#8⟩]) (last := ⟨false, [], 100#8⟩) (by decide +kernel) (by decide +kernel)
    (by decide) (by decide) (by decide +kernel) (fun a => by rfl)] at h
  cases h

/-- `"%d"` of the smallest `int` overflows (`-i`). -/
theorem C37_min_refuted : ¬ C37_full := by
  intro h
  have hc : PfCall (pfMem [37, 100, 0] [0] 40) 100 40 10 [.conv [] false [] (.dec (0x80000000#32))] :=
    .of_check (by decide) (by decide +kernel) (by decide +kernel) (by decide +kernel) (by decide +kernel)
  obtain ⟨l, ret, raised, h, _⟩ := h (fun _ => 0#8) _ _ _ _ _ hc
  rw [vsnprintf_ub (mods := []) (last := ⟨false, [], 100#8⟩) (by decide +kernel) (by decide +kernel)
    (by decide) (by decide) (by decide +kernel) (fun a => by rfl)] at h
  cases h

/-- The check for %b allows for 32 characters and a NUL, but a blank is appended after the 32 digits of
a number with the top bit set: `snprintf(buf, 33, "%b", 0x80000000)` writes 34 bytes. -/
theorem C37_bin_refuted : ¬ C37_full := by
  intro h
  have hc : PfCall (pfMem [37, 98, 0] [0] 33) 100 33 10 [.conv [] false [] (.bin 0x80000000#32)] :=
    .of_check (by decide) (by decide +kernel) (by decide +kernel) (by decide +kernel) (by decide +kernel)
  obtain ⟨l, ret, raised, h, _⟩ := h (fun _ => 0#8) _ _ _ _ _ hc
  rw [vsnprintf_ub (mods := []) (last := ⟨false, [], 98#8⟩) (by decide +kernel) (by decide +kernel)
    (by decide) (by decide) (by decide +kernel) (fun a => by rfl)] at h
  cases h

/-- A format ending in a lone '%' is read beyond its terminator. -/
theorem C37_lone_percent_refuted : ¬ ∀ (junk : Nat → Byte) (m : Mem) (buf size fmt : Nat), 0 < size →
    m.Mapped buf size → m.IsStr fmt [37#8] → (fmt + 1 < buf ∨ buf + size ≤ fmt) →
    ∃ (l : List Byte) (ret : Int) (raised : Bool),
      vsnprintf junk m buf size fmt [] = .ok (m.write buf l, ret, raised) ∧ l.length ≤ size := by
  intro h
  obtain ⟨l, ret, raised, h, _⟩ := h (fun _ => 0#8) (pfMem [37, 0] [0] 40) 100 40 10 (by decide)
    (by decide +kernel) (by decide +kernel) (by decide)
  rw [vsnprintf, vsnprintfLoop, load_some (b := 37#8) (by decide +kernel)] at h
  simp only [Res.ok_bind] at h
  rw [if_pos (by decide), pfItem, if_pos rfl, pfConvLoop, fmtZero, load_some (b := 0#8) (by decide +kernel)] at h
  simp only [Res.ok_bind] at h
  rw [if_neg (by decide)] at h
  simp only [Res.ok_bind, Res.pure_eq] at h
  rw [fmtDigits, load_some (b := 0#8) (by decide +kernel)] at h
  simp only [Res.ok_bind] at h
  rw [if_neg (by decide)] at h
  simp only [Res.ok_bind, Res.pure_eq] at h
  rw [load_some (b := 0#8) (by decide +kernel)] at h
  simp only [Res.ok_bind] at h
  have hsw : ∀ fl, pfSwitch (fun _ => 0#8) (pfMem [37, 0] [0] 40) 10 (0 + 1) 100 0 40 [] fl 0#8 = .ok (.more 1 fl) :=
    fun fl => rfl
  rw [hsw] at h
  simp only [Res.ok_bind] at h
  rw [load_none (by decide +kernel)] at h
  cases h

/-! ### C38 -/

/-- C38: whenever there is room for the text and 27 more bytes (31 for formats with %b). -/
def C38_full : Prop :=
  ∀ (junk : Nat → Byte) (m : Mem) (buf size fmt : Nat) (its : List Item), PfCall m buf size fmt its →
    (render its).length + spare its < size →
    vsnprintf junk m buf size fmt (fmtArgs its)
      = .ok (m.write buf (render its ++ [0#8]), ((render its).length : Int), false)

/-- The conversions rendered as they should be. -/
def _root_.Spec.Conv.Good (fl : FmtFlags) : Conv → Prop
  | .pct => True
  | .dec v =>
    (fl.width = 0 ∧ v.toInt ≠ -2147483648 ∧ (fl.sep = true → -1000000000 < v.toInt)) ∨
      (fl.sep = false ∧ 0 < v.toInt ∧ (fl.width ≤ 9 ∨ (fl.width = 10 ∧ fl.zero = false))) ∨
      (fl.sep = false ∧ v.toInt < 0 ∧ v.toInt ≠ -2147483648 ∧ fl.width ≤ 9 ∧ fl.width ≤ (numeral 10 v.toInt.natAbs).length)
  | .udec v => fl.sep = false ∧ v ≠ 0#32 ∧ (fl.width ≤ 9 ∨ (fl.width = 10 ∧ fl.zero = false))
  | .ldec v => v.toInt ≠ -9223372036854775808 ∧
      ((fl.sep = false ∧ (fl.width ≤ (numeral 10 v.toInt.natAbs).length ∨ (fl.zero = true ∧ 0 ≤ v.toInt ∧ fl.width ≤ 20))) ∨
        (fl.sep = true ∧ fl.width = 0 ∧ (numeral 10 v.toInt.natAbs).length % 3 ≠ 0))
  | .uldec v => (fl.sep = false ∧ (fl.width ≤ (numeral 10 v.toNat).length ∨ (fl.zero = true ∧ fl.width ≤ 20))) ∨
      (fl.sep = true ∧ fl.width = 0 ∧ (numeral 10 v.toNat).length % 3 ≠ 0)
  | .hex v => fl.width ≤ (numeral 16 v.toNat).length ∨ (fl.zero = true ∧ fl.width ≤ 8)
  | .HEX v => fl.width ≤ (numeralCaps 16 v.toNat).length ∨ (fl.zero = true ∧ fl.width ≤ 8)
  | .oct _ => False
  | .bin v => 33 ≤ fl.groups ∧ (fl.width ≤ (numeral 2 v.toNat).length ∨ (fl.zero = true ∧ fl.width ≤ 32))
  | .str _ _ => True
  | .chr _ => fl.width ≤ 1
  | .dbl _ => False

/-- The items rendered as they should be. -/
def _root_.Spec.Item.Good : Item → Prop
  | .lit _ => True
  | .conv mods z ds k => k.Good (convFlags mods z ds k)

instance (fl : FmtFlags) (k : Conv) : Decidable (k.Good fl) := by
  cases k <;> simp only [Conv.Good] <;> infer_instance
instance (it : Item) : Decidable it.Good := by
  cases it <;> simp only [Item.Good] <;> infer_instance

theorem padNum_unsigned {w : Nat} {zero : Bool} {l : List Byte} :
    padNum w zero [] l = padTo w (if zero then 48#8 else 32#8) l := by
  unfold padNum padTo
  cases zero <;> simp

theorem padNum_zero {zero : Bool} {s l : List Byte} : padNum 0 zero s l = s ++ l := by
  unfold padNum
  cases zero <;> simp

theorem padNum_short {w : Nat} {zero : Bool} {s l : List Byte} (h : w ≤ l.length) : padNum w zero s l = s ++ l := by
  unfold padNum
  rw [show w - (s.length + l.length) = 0 by omega]
  cases zero <;> simp

theorem padTo_short {w : Int} {c : Byte} {l : List Byte} (h : w ≤ l.length) : padTo w c l = l := by
  unfold padTo
  rw [show w.toNat - l.length = 0 by omega]
  simp

theorem padTo_le {w : Int} {c : Byte} {l : List Byte} (h : w ≤ 1) (hl : l ≠ []) : padTo w c l = l := by
  have := List.length_pos_iff.2 hl
  unfold padTo
  rw [show w.toNat - l.length = 0 by omega]
  simp

/-- A long number with a precision. -/
theorem ltodec_render {v : Int} {w : Nat} (h1 : -9223372036854775808 < v) (h2 : v ≤ 9223372036854775807)
    (hw1 : 1 ≤ w) (hw2 : w ≤ 20) :
    Converts (fun m d => ltodec m v d w 0#8) (signOf v ++ padTo w 48#8 (numeral 10 v.natAbs)) := by
  intro m d hm
  show ltodec m v d w 0#8 = _
  unfold ltodec
  by_cases hneg : v < 0
  · simp only [signOf, if_pos hneg, List.singleton_append] at hm ⊢
    obtain ⟨a1, b1⟩ := store_step hm 45#8
    rw [a1]
    simp only [Res.ok_bind]
    rw [ckLong, if_pos (by omega)]
    simp only [Res.ok_bind]
    have e : (-v).toNat = v.natAbs := by omega
    rw [e, C26_ultodec_partial (by omega) (by omega) (by omega) b1, List.cons_append, write_cons]
    simp only [Res.ok_bind, List.length_cons]
    show Res.ok _ = _
    congr 2
  · simp only [signOf, if_neg hneg, List.nil_append] at hm ⊢
    have e : v.toNat = v.natAbs := by omega
    rw [e, C26_ultodec_partial (by omega) (by omega) (by omega) hm]

/-- A long number in groups. -/
theorem ltodec_group {v : Int} {lim : Byte} (h1 : -9223372036854775808 < v) (h2 : v ≤ 9223372036854775807)
    (h3 : (numeral 10 v.natAbs).length % 3 ≠ 0) :
    Converts (fun m d => ltodec m v d 1 lim) (signOf v ++ group lim (numeral 10 v.natAbs)) := by
  intro m d hm
  show ltodec m v d 1 lim = _
  unfold ltodec
  by_cases hneg : v < 0
  · simp only [signOf, if_pos hneg, List.singleton_append] at hm ⊢
    obtain ⟨a1, b1⟩ := store_step hm 45#8
    rw [a1]
    simp only [Res.ok_bind]
    rw [ckLong, if_pos (by omega)]
    simp only [Res.ok_bind]
    have e : (-v).toNat = v.natAbs := by omega
    rw [e, C26_group_partial (by omega) (by omega) (Or.inr rfl) h3 b1, List.cons_append, write_cons]
    simp only [Res.ok_bind, List.length_cons]
    show Res.ok _ = _
    congr 2
  · simp only [signOf, if_neg hneg, List.nil_append] at hm ⊢
    have e : v.toNat = v.natAbs := by omega
    rw [e, C26_group_partial (by omega) (by omega) (Or.inr rfl) h3 hm]

theorem padTo_length_le {w : Nat} {c : Byte} {l : List Byte} {k : Nat} (h1 : w ≤ k) (h2 : l.length ≤ k) :
    (padTo w c l).length ≤ k := by
  unfold padTo
  simp only [List.length_append, List.length_replicate, Int.toNat_natCast]
  omega

theorem blankGroups_none {g : Nat} {l : List Byte} (h : l.length < g) : blankGroups g l = l := by
  unfold blankGroups
  have : ∀ x ∈ l.zipIdx, (if x.2 ≠ 0 ∧ (l.length - x.2) % g = 0 then [32#8, x.1] else [x.1]) = [x.1] := by
    intro x hx
    rw [if_neg]
    rintro ⟨h1, h2⟩
    have hlt : x.2 < l.length := by
      have := List.mem_zipIdx hx
      omega
    rw [Nat.mod_eq_of_lt (by omega)] at h2
    omega
  have e : ∀ L : List (Byte × Nat), (∀ x ∈ L, (if x.2 ≠ 0 ∧ (l.length - x.2) % g = 0 then [32#8, x.1] else [x.1]) = [x.1]) →
      L.flatMap (fun x => if x.2 ≠ 0 ∧ (l.length - x.2) % g = 0 then [32#8, x.1] else [x.1]) = L.map Prod.fst := by
    intro L
    induction L with
    | nil => intro _; rfl
    | cons x L ih =>
      intro h
      rw [List.flatMap_cons, h x (by simp), ih (fun y hy => h y (by simp [hy]))]
      rfl
  rw [e _ this]
  simp

/-- The text of a good item is what the code yields. -/
theorem itemOut_render (junk : Nat → Byte) (it : Item) (hg : it.Good) : ItemOut junk it it.render := by
  cases it with
  | lit c => rfl
  | conv mods z ds k =>
    show ConvOut junk (convFlags mods z ds k) k (k.render (convFlags mods z ds k))
    have hg : k.Good (convFlags mods z ds k) := hg
    generalize convFlags mods z ds k = fl at hg ⊢
    have hp := toPf_prec fl
    cases k with
    | pct => rfl
    | dec v =>
      obtain ⟨b1, b2⟩ := toInt32_bounds v
      have hlen : (numeral 10 v.toInt.natAbs).length ≤ 10 := numeral_length_le (by omega) (by omega) (by omega)
      rcases hg with ⟨g1, g2, g3⟩ | ⟨g1, g2, g3⟩ | ⟨g1, g2, g3, g4, g5⟩
      rotate_left 2
      · have e : Conv.render fl (.dec v) = 45#8 :: numeral 10 v.toInt.natAbs := by
          simp only [Conv.render, sepOf, g1, Bool.false_eq_true, if_false, group_zero]
          rw [padNum_short g5, signOf, if_pos g2]; rfl
        refine ⟨by rw [e, List.length_cons]; omega, fun m d hm => ?_⟩
        rw [e] at hm ⊢
        have hs : (toPf fl).sep = 0#8 := by simp [toPf, g1]
        have hw : (toPf fl).padding = fl.width := rfl
        rw [hs, hw]
        exact C25_itodec_width_partial (by omega) (by omega) (by omega) (by omega) (by omega)
          (by rw [if_pos g2, padTo_short (by omega)]; rfl) hm
      · simp only [ConvOut, Conv.render, g1, padNum_zero, toPf]
        refine ⟨?_, itodec_render (by omega) (by omega)⟩
        have hgl := group_length (sepOf fl) (numeral 10 v.toInt.natAbs)
        by_cases hsep : fl.sep = true
        · by_cases hneg : v.toInt < 0
          · have h9 : (numeral 10 v.toInt.natAbs).length ≤ 9 :=
              numeral_length_le (by omega) (by have := g3 hsep; omega) (by omega)
            simp only [signOf, if_pos hneg, List.length_append, List.length_cons, List.length_nil]
            omega
          · simp only [signOf, if_neg hneg, List.length_append, List.length_nil]
            omega
        · simp only [sepOf, hsep, group_zero, List.length_append, signOf]
          simp only [Bool.false_eq_true, if_false, group_zero]
          split <;> simp <;> omega
      · have hw : (toPf fl).padding = fl.width := rfl
        have e : padNum fl.width fl.zero (signOf v.toInt) (group (sepOf fl) (numeral 10 v.toInt.natAbs))
          = padTo fl.width (padChar (toPf fl).pad) (numeral 10 v.toInt.natAbs) := by
          rw [signOf, if_neg (by omega), padNum_unsigned]
          simp only [sepOf, g1, toPf, padChar]
          cases fl.zero <;> simp
        refine ⟨?_, fun m d hm => ?_⟩
        · rw [Conv.render, e]
          have := @padTo_length_le fl.width (padChar (toPf fl).pad) (numeral 10 v.toInt.natAbs) 13 (by omega) (by omega)
          exact this
        · simp only [Conv.render] at hm ⊢
          rw [e] at hm ⊢
          have hs : (toPf fl).sep = 0#8 := by simp [toPf, g1]
          rw [hs, hw]
          rcases g3 with g3 | ⟨g3, g4⟩
          · exact C25_itodec_width_partial (by omega) (by omega) (by omega) (by omega) (by omega)
              (by rw [if_neg (by omega), List.nil_append]) hm
          · have hpc : padChar (toPf fl).pad = 32#8 := by simp [toPf, g4, padChar]
            rw [g3, hpc] at hm ⊢
            show itodec m v.toInt d 10 0#8 _ = _
            unfold itodec
            rw [if_neg (by omega), show v.toInt.toNat = v.toInt.natAbs by omega]
            exact uitodec_width_ten (by omega) (by omega) hpc hm
    | udec v =>
      obtain ⟨g1, g2, g3⟩ : _ ∧ _ ∧ _ := hg
      have hv : v.toNat ≠ 0 := fun h => g2 (BitVec.eq_of_toNat_eq (by simpa using h))
      have hlen : (numeral 10 v.toNat).length ≤ 10 := numeral_length_le (by omega) (by omega) (by omega)
      have e : padNum fl.width fl.zero [] (group (sepOf fl) (numeral 10 v.toNat))
          = padTo (toPf fl).prec (padChar (toPf fl).pad) (numeral 10 v.toNat) := by
        rw [padNum_unsigned, hp]
        simp only [sepOf, g1, toPf, padChar]
        by_cases h0 : fl.width = 0
        · rw [h0, padTo_le (by omega) (by simp [numeral_ne_nil]), padTo_le (by omega) (numeral_ne_nil _ _)]
          simp
        · rw [show max (fl.width : Int) 1 = fl.width by omega]
          cases fl.zero <;> simp
      refine ⟨?_, fun m d hm => ?_⟩
      · rw [Conv.render, e, hp, show max (fl.width : Int) 1 = ((max fl.width 1 : Nat) : Int) by omega]
        exact padTo_length_le (by omega) (by omega)
      · simp only [Conv.render] at hm ⊢
        rw [e] at hm ⊢
        have hs : (toPf fl).sep = 0#8 := by simp [toPf, g1]
        rw [hs]
        rcases g3 with g3 | ⟨g3, g4⟩
        · exact C25_uitodec_partial hv (by omega) (by omega) (by omega) hm
        · have hpc : padChar (toPf fl).pad = 32#8 := by simp [toPf, g4, padChar]
          have hw : (toPf fl).prec = 10 := by rw [hp, g3]; decide
          rw [hw, hpc] at hm ⊢
          exact uitodec_width_ten hv (by omega) hpc hm
    | ldec v =>
      obtain ⟨b1, b2⟩ := toInt64_bounds v
      obtain ⟨g2, ⟨g1, g3⟩ | ⟨g1, g3, g4⟩⟩ : _ ∧ (_ ∨ _) := hg
      rotate_left
      · have hl19 : (numeral 10 v.toInt.natAbs).length ≤ 19 := numeral_length_le (by omega) (by omega) (by omega)
        have hgl := group_length 46#8 (numeral 10 v.toInt.natAbs)
        have e : Conv.render fl (.ldec v) = signOf v.toInt ++ group 46#8 (numeral 10 v.toInt.natAbs) := by
          simp [Conv.render, g3, padNum_zero, sepOf, g1]
        have h1 : (signOf v.toInt).length ≤ 1 := by unfold signOf; split <;> simp
        refine ⟨by rw [e, List.length_append]; omega, ?_⟩
        have hs : (toPf fl).sep = 46#8 := by simp [toPf, g1]
        have hp1 : (toPf fl).prec = 1 := by rw [hp, g3]; decide
        rw [e, hs, hp1]
        exact ltodec_group (by omega) (by omega) g4
      have hs : (toPf fl).sep = 0#8 := by simp [toPf, g1]
      have hlen : (numeral 10 v.toInt.natAbs).length ≤ 19 := numeral_length_le (by omega) (by omega) (by omega)
      have hp' : (toPf fl).prec = ((max fl.width 1 : Nat) : Int) := by omega
      have hpos := List.length_pos_iff.2 (numeral_ne_nil 10 v.toInt.natAbs)
      have e : padNum fl.width fl.zero (signOf v.toInt) (group (sepOf fl) (numeral 10 v.toInt.natAbs))
          = signOf v.toInt ++ padTo ((max fl.width 1 : Nat) : Int) 48#8 (numeral 10 v.toInt.natAbs) := by
        simp only [sepOf, g1, Bool.false_eq_true, if_false, group_zero]
        rcases g3 with h | ⟨h1, h2, h3⟩
        · rw [padNum_short h, padTo_short (by omega)]
        · rw [signOf, if_neg (by omega), padNum_unsigned, List.nil_append, h1, if_pos rfl]
          by_cases h0 : fl.width = 0
          · rw [h0, padTo_le (by omega) (numeral_ne_nil _ _), padTo_le (by omega) (numeral_ne_nil _ _)]
          · rw [show max fl.width 1 = fl.width by omega]
      have hw20 : fl.width ≤ 20 := by rcases g3 with h | h <;> omega
      refine ⟨?_, ?_⟩
      · rw [Conv.render, e, List.length_append]
        have h1 : (signOf v.toInt).length ≤ 1 := by unfold signOf; split <;> simp
        have h2 := @padTo_length_le (max fl.width 1) 48#8 (numeral 10 v.toInt.natAbs) 20 (by omega) (by omega)
        omega
      · rw [Conv.render, e, hs, hp']
        exact ltodec_render (by omega) (by omega) (by omega) (by omega)
    | uldec v =>
      obtain ⟨g1, g3⟩ | ⟨g1, g3, g4⟩ : _ ∨ _ := hg
      rotate_left
      · have hl20 : (numeral 10 v.toNat).length ≤ 20 := numeral_length_le (by omega) (by omega) (by omega)
        have hgl := group_length 46#8 (numeral 10 v.toNat)
        have e : Conv.render fl (.uldec v) = group 46#8 (numeral 10 v.toNat) := by
          simp [Conv.render, g3, padNum_zero, sepOf, g1]
        have hs : (toPf fl).sep = 46#8 := by simp [toPf, g1]
        have hp1 : (toPf fl).prec = 1 := by rw [hp, g3]; decide
        refine ⟨by rw [e]; omega, fun m d hm => ?_⟩
        rw [e] at hm ⊢
        rw [hs, hp1]
        exact C26_group_partial (by omega) (by omega) (Or.inr rfl) g4 hm
      have hs : (toPf fl).sep = 0#8 := by simp [toPf, g1]
      have hlen : (numeral 10 v.toNat).length ≤ 20 := numeral_length_le (by omega) (by omega) (by omega)
      have hp' : (toPf fl).prec = ((max fl.width 1 : Nat) : Int) := by omega
      have hpos := List.length_pos_iff.2 (numeral_ne_nil 10 v.toNat)
      have e : padNum fl.width fl.zero [] (group (sepOf fl) (numeral 10 v.toNat))
          = padTo ((max fl.width 1 : Nat) : Int) 48#8 (numeral 10 v.toNat) := by
        simp only [sepOf, g1, Bool.false_eq_true, if_false, group_zero]
        rcases g3 with h | ⟨h1, h3⟩
        · rw [padNum_short h, padTo_short (by omega), List.nil_append]
        · rw [padNum_unsigned, h1, if_pos rfl]
          by_cases h0 : fl.width = 0
          · rw [h0, padTo_le (by omega) (numeral_ne_nil _ _), padTo_le (by omega) (numeral_ne_nil _ _)]
          · rw [show max fl.width 1 = fl.width by omega]
      have hw20 : fl.width ≤ 20 := by rcases g3 with h | h <;> omega
      refine ⟨?_, fun m d hm => ?_⟩
      · rw [Conv.render, e]
        exact padTo_length_le (by omega) (by omega)
      · simp only [Conv.render] at hm ⊢
        rw [e] at hm ⊢
        rw [hs, hp']
        exact C26_ultodec_partial (by omega) (by omega) (by omega) hm
    | hex v =>
      have hlen : (numeral 16 v.toNat).length ≤ 8 := numeral_length_le (by omega) (by omega) (by omega)
      have hw8 : fl.width ≤ 8 := by rcases hg with h | h <;> omega
      have e : padNum fl.width fl.zero [] (numeral 16 v.toNat) = padTo fl.width 48#8 (numeral 16 v.toNat) := by
        rw [padNum_unsigned]
        rcases hg with h | ⟨h1, h3⟩
        · rw [padTo_short (by omega), padTo_short (by omega)]
        · rw [h1, if_pos rfl]
      refine ⟨?_, fun m d hm => ?_⟩
      · rw [Conv.render, e]
        exact padTo_length_le (by omega) (by omega)
      · simp only [Conv.render] at hm ⊢
        rw [e] at hm ⊢
        exact C27_itohex_partial (by simp only [toPf]; omega) (by simp only [toPf]; omega) hm
    | HEX v =>
      have hlen : (numeralCaps 16 v.toNat).length ≤ 8 := by
        have := @numeral_length_le 16 v.toNat 8 (by omega) (by omega) (by omega)
        simpa [numeral, numeralCaps] using this
      have hne : numeralCaps 16 v.toNat ≠ [] := by
        have := numeral_ne_nil 16 v.toNat
        simpa [numeral, numeralCaps] using this
      have hw8 : fl.width ≤ 8 := by rcases hg with h | h <;> omega
      have e : padNum fl.width fl.zero [] (numeralCaps 16 v.toNat) = padTo fl.width 48#8 (numeralCaps 16 v.toNat) := by
        rw [padNum_unsigned]
        rcases hg with h | ⟨h1, h3⟩
        · rw [padTo_short (by omega), padTo_short (by omega)]
        · rw [h1, if_pos rfl]
      refine ⟨?_, fun m d hm => ?_⟩
      · rw [Conv.render, e]
        exact padTo_length_le (by omega) (by omega)
      · simp only [Conv.render] at hm ⊢
        rw [e] at hm ⊢
        exact C27_itoHEX_partial (by simp only [toPf]; omega) (by simp only [toPf]; omega) hm
    | oct v => exact hg.elim
    | dbl d => exact hg.elim
    | bin v =>
      obtain ⟨g1, g3⟩ : _ ∧ _ := hg
      have hlen : (numeral 2 v.toNat).length ≤ 32 := numeral_length_le (by omega) (by omega) (by omega)
      have hpos := List.length_pos_iff.2 (numeral_ne_nil 2 v.toNat)
      have hw32 : fl.width ≤ 32 := by rcases g3 with h | h <;> omega
      have e : padNum fl.width fl.zero [] (blankGroups fl.groups (numeral 2 v.toNat))
          = padTo ((max fl.width 1 : Nat) : Int) 48#8 (numeral 2 v.toNat) := by
        rw [blankGroups_none (by omega)]
        rcases g3 with h | ⟨h1, h3⟩
        · rw [padNum_short h, padTo_short (by omega), List.nil_append]
        · rw [padNum_unsigned, h1, if_pos rfl]
          by_cases h0 : fl.width = 0
          · rw [h0, padTo_le (by omega) (numeral_ne_nil _ _), padTo_le (by omega) (numeral_ne_nil _ _)]
          · rw [show max fl.width 1 = fl.width by omega]
      refine ⟨?_, ?_, fun m d hm => ?_⟩
      · rw [Conv.render, e]
        have := List.length_pos_iff.2 (numeral_ne_nil 2 v.toNat)
        simp only [padTo, List.length_append]; omega
      · rw [Conv.render, e]
        exact padTo_length_le (by omega) (by omega)
      · simp only [Conv.render] at hm ⊢
        rw [e] at hm ⊢
        rw [hp, groups_bin, show max (fl.width : Int) 1 = ((max fl.width 1 : Nat) : Int) by omega,
          show binGroup fl = fl.groups by unfold binGroup; rw [if_neg (by omega)]]
        exact C27_itobin_nogroup_partial (by omega) (by omega) (by omega) (Or.inr (by omega)) hm
    | str p s => simp [ConvOut, Conv.render, padNum]
    | chr v =>
      have hg : fl.width ≤ 1 := hg
      simp only [ConvOut, Conv.render, padNum]
      simp [show fl.width - 1 = 0 by omega]

theorem forall2_render (junk : Nat → Byte) : ∀ {its : List Item}, (∀ it ∈ its, it.Good) →
    List.Forall₂ (ItemOut junk) its (its.map Item.render) := by
  intro its
  induction its with
  | nil => intro _; exact .nil
  | cons it its ih =>
    intro h
    exact .cons (itemOut_render junk it (h it (by simp))) (ih (fun x hx => h x (by simp [hx])))

/-- C38: with room for the text and 27 more bytes (31 for formats with %b), every list of good items is rendered exactly: the text and a
NUL are written, nothing else, and the length of the text is returned. -/
theorem C38_vsnprintf_partial {junk : Nat → Byte} {m : Mem} {buf size fmt : Nat} {its : List Item}
    (hc : PfCall m buf size fmt its) (hg : ∀ it ∈ its, it.Good) (hroom : (render its).length + spare its < size) :
    vsnprintf junk m buf size fmt (fmtArgs its)
      = .ok (m.write buf (render its ++ [0#8]), ((render its).length : Int), false) := by
  have hr : (its.map Item.render).flatten = render its := by simp [render, List.flatMap]
  rcases vsnprintf_run hc.mapped hc.size_pos (forall2_render junk hg) hc.items (Or.inr (by rw [hr]; exact hroom)) hc.format hc.disjoint with
    ⟨h1, h2⟩ | ⟨l, b, h1, h2, h3, h4⟩
  · rw [hr] at h1; exact h1
  · rw [hr] at h3; omega

/-- C38: in a buffer of any size, a list of good items (without padded strings) is rendered exactly, or
SIGSEGV is raised. -/
theorem C38_vsnprintf_any_size_partial {junk : Nat → Byte} {m : Mem} {buf size fmt : Nat} {its : List Item}
    (hc : PfCall m buf size fmt its) (hg : ∀ it ∈ its, it.Good ∧ SafeItem it) :
    vsnprintf junk m buf size fmt (fmtArgs its)
        = .ok (m.write buf (render its ++ [0#8]), ((render its).length : Int), false) ∨
      ∃ (l : List Byte) (b : Nat), l.length ≤ size ∧
        vsnprintf junk m buf size fmt (fmtArgs its) = .ok (m.write buf l, -(b : Int), true) := by
  have hr : (its.map Item.render).flatten = render its := by simp [render, List.flatMap]
  have hpad : ∀ it ∈ its, NoPad it := by
    intro it hit
    have := (hg it hit).2
    revert this
    unfold SafeItem NoPad
    split <;> simp_all
  rcases vsnprintf_run hc.mapped hc.size_pos (forall2_render junk (fun it hit => (hg it hit).1)) hc.items
    (Or.inl hpad) hc.format hc.disjoint with ⟨h1, h2⟩ | ⟨l, b, h1, h2, h3, h4⟩
  · rw [hr] at h1; exact Or.inl h1
  · exact Or.inr ⟨l, b, h1, h4⟩

/-- `snprintf(buf, 40, "a%05d, %4s", 42, "xy")` writes "a00042,   xy". -/
example (junk : Nat → Byte) : vsnprintf junk (pfMem [97, 37, 48, 53, 100, 44, 32, 37, 52, 115, 0] [120, 121, 0] 40) 100 40 10
    [.int 42#32, .str 40] = .ok ((pfMem [97, 37, 48, 53, 100, 44, 32, 37, 52, 115, 0] [120, 121, 0] 40).write 100
      [97, 48, 48, 48, 52, 50, 44, 32, 32, 32, 120, 121, 0], 12, false) := by
  have := @C38_vsnprintf_partial junk (pfMem [97, 37, 48, 53, 100, 44, 32, 37, 52, 115, 0] [120, 121, 0] 40) 100 40 10
    [.lit 97#8, .conv [] true [5] (.dec 42#32), .lit 44#8, .lit 32#8, .conv [] false [4] (.str 40 [120#8, 121#8])]
    (.of_check (by decide) (by decide +kernel) (by decide +kernel) (by decide +kernel) (by decide +kernel))
    (by decide +kernel) (by decide +kernel)
  rw [show render [.lit 97#8, .conv [] true [5] (.dec 42#32), .lit 44#8, .lit 32#8, .conv [] false [4] (.str 40 [120#8, 121#8])]
    = [97, 48, 48, 48, 52, 50, 44, 32, 32, 32, 120, 121] by decide +kernel] at this
  exact this

/-- A single conversion of a kind that is not rendered as it should be. -/
theorem vsnprintf_wrong {junk : Nat → Byte} {m : Mem} {it : Item} {t : List Byte} {fmt buf size : Nat}
    (hc : PfCall m buf size fmt [it]) (ht : ItemOut junk it t) (hp : NoPad it) (hroom : t.length + spare [it] < size)
    (hne : t ≠ it.render) :
    vsnprintf junk m buf size fmt (fmtArgs [it])
      ≠ .ok (m.write buf (render [it] ++ [0#8]), ((render [it]).length : Int), false) := by
  intro h
  have := vsnprintf_run hc.mapped hc.size_pos (.cons ht .nil) hc.items (Or.inl (by simpa using hp)) hc.format hc.disjoint
  simp only [List.flatten_cons, List.flatten_nil, List.append_nil] at this
  rcases this with ⟨h1, _⟩ | ⟨_, _, _, _, h1, _⟩
  · rw [h1] at h
    simp only [Res.ok.injEq, Prod.mk.injEq, render, List.flatMap_cons, List.flatMap_nil, List.append_nil] at h
    have hl : t.length = it.render.length := by have := h.2.1; omega
    apply hne
    have hw := h.1
    have a1 := write_holds m buf (t ++ [0#8])
    rw [hw] at a1
    have a2 := write_holds m buf (it.render ++ [0#8])
    apply List.ext_getElem hl
    intro i h1 h2
    have e1 := a1 i (by simp; omega)
    have e2 := a2 i (by simp; omega)
    rw [e1] at e2
    simpa [List.getElem_append_left h1, List.getElem_append_left h2] using e2
  · omega

/-- `"%u"` of 0 prints a blank. -/
theorem C38_zero_refuted : ¬ C38_full := by
  intro h
  have hc : PfCall (pfMem [37, 117, 0] [0] 40) 100 40 10 [.conv [] false [] (.udec 0#32)] :=
    .of_check (by decide) (by decide +kernel) (by decide +kernel) (by decide +kernel) (by decide +kernel)
  refine vsnprintf_wrong (junk := fun _ => 0#8) (t := [32#8]) hc ⟨by decide, fun m d hm => ?_⟩ trivial (by decide) (by decide +kernel)
    (h (fun _ => 0#8) _ _ _ _ _ hc (by decide +kernel))
  exact uitodec_small (by decide) (by decide) (by decide) rfl (by decide +kernel) hm

/-- `"%5d"` of -42 takes six characters. -/
theorem C38_negative_refuted : ¬ C38_full := by
  intro h
  have hc : PfCall (pfMem [37, 53, 100, 0] [0] 40) 100 40 10 [.conv [] false [5] (.dec (-42#32))] :=
    .of_check (by decide) (by decide +kernel) (by decide +kernel) (by decide +kernel) (by decide +kernel)
  refine vsnprintf_wrong (junk := fun _ => 0#8) (t := [45#8, 32#8, 32#8, 32#8, 52#8, 50#8]) hc ⟨by decide, fun m d hm => ?_⟩ trivial (by decide)
    (by decide +kernel) (h (fun _ => 0#8) _ _ _ _ _ hc (by decide +kernel))
  exact C25_itodec_width_partial (by decide) (by decide) (by decide) (by decide) (by decide) (by decide +kernel) hm

/-- `"%12u"` of 42 is not padded at all. -/
theorem C38_wide_refuted : ¬ C38_full := by
  intro h
  have hc : PfCall (pfMem [37, 49, 50, 117, 0] [0] 60) 100 60 10 [.conv [] false [1, 2] (.udec 42#32)] :=
    .of_check (by decide) (by decide +kernel) (by decide +kernel) (by decide +kernel) (by decide +kernel)
  refine vsnprintf_wrong (junk := fun _ => 0#8) (t := [52#8, 50#8]) hc ⟨by decide, fun m d hm => ?_⟩ trivial (by decide)
    (by decide +kernel) (h (fun _ => 0#8) _ _ _ _ _ hc (by decide +kernel))
  exact uitodec_above (by decide) (by decide +kernel) (by decide +kernel) (by decide +kernel) hm

/-- `"%'lu"` of 123 begins with the separator. -/
theorem C38_group_refuted : ¬ C38_full := by
  intro h
  have hc : PfCall (pfMem [37, 39, 108, 117, 0] [0] 60) 100 60 10 [.conv [.chunk ⟨false, [], 39#8⟩, .chunk ⟨false, [], 108#8⟩] false [] (.uldec 123#64)] :=
    .of_check (by decide) (by decide +kernel) (by decide +kernel) (by decide +kernel) (by decide +kernel)
  refine vsnprintf_wrong (junk := fun _ => 0#8) (t := [46#8, 49#8, 50#8, 51#8]) hc ⟨by decide, fun m d hm => ?_⟩ trivial (by decide)
    (by decide +kernel) (h (fun _ => 0#8) _ _ _ _ _ hc (by decide +kernel))
  exact ultodec_small (by decide) (by decide) (by decide +kernel) hm

/-- `"%5x"` of 42 is padded with zeros instead of blanks. -/
theorem C38_hex_refuted : ¬ C38_full := by
  intro h
  have hc : PfCall (pfMem [37, 53, 120, 0] [0] 40) 100 40 10 [.conv [] false [5] (.hex 42#32)] :=
    .of_check (by decide) (by decide +kernel) (by decide +kernel) (by decide +kernel) (by decide +kernel)
  refine vsnprintf_wrong (junk := fun _ => 0#8) (t := [48#8, 48#8, 48#8, 50#8, 97#8]) hc ⟨by decide, fun m d hm => ?_⟩ trivial (by decide)
    (by decide +kernel) (h (fun _ => 0#8) _ _ _ _ _ hc (by decide +kernel))
  have := @C27_itohex_partial m 42#32 d 5 (by decide) (by decide)
  rw [show padTo 5 48#8 (numeral 16 (42#32 : BitVec 32).toNat) = [48#8, 48#8, 48#8, 50#8, 97#8] by decide +kernel] at this
  exact this hm

/-- `"%b"` of 5 has a blank at the end. -/
theorem C38_bin_refuted : ¬ C38_full := by
  intro h
  have hc : PfCall (pfMem [37, 98, 0] [0] 40) 100 40 10 [.conv [] false [] (.bin 5#32)] :=
    .of_check (by decide) (by decide +kernel) (by decide +kernel) (by decide +kernel) (by decide +kernel)
  refine vsnprintf_wrong (junk := fun _ => 0#8) (t := [49#8, 48#8, 49#8, 32#8]) hc ⟨by decide, by decide, ?_⟩ trivial (by decide)
    (by decide +kernel) (h (fun _ => 0#8) _ _ _ _ _ hc (by decide +kernel))
  have := @itobin_text 5#32 1 32 (by decide) (by decide)
  rw [show binOut 5#32 1 32 = [49#8, 48#8, 49#8, 32#8] by decide +kernel] at this
  exact this

/-- `"%(8)b"` of 0xfff: the groups are counted from the left end of the 32 bits, zeros included, and the count goes on
until the first digit: "1 11111111 111" instead of "1111 11111111". -/
theorem C38_bingroup_refuted : ¬ C38_full := by
  intro h
  have hc : PfCall (pfMem [37, 40, 56, 41, 98, 0] [0] 60) 100 60 10 [.conv [.group false [] [8]] false [] (.bin 0xfff#32)] :=
    .of_check (by decide) (by decide +kernel) (by decide +kernel) (by decide +kernel) (by decide +kernel)
  refine vsnprintf_wrong (junk := fun _ => 0#8) (t := binOut 0xfff#32 1 8) hc ⟨by decide +kernel, by decide +kernel, ?_⟩ trivial
    (by decide +kernel) (by decide +kernel) (h (fun _ => 0#8) _ _ _ _ _ hc (by decide +kernel))
  exact @itobin_text 0xfff#32 1 8 (by decide) (by decide)

example : binOut 0xfff#32 1 8 = [49, 32, 49, 49, 49, 49, 49, 49, 49, 49, 32, 49, 49, 49] := by decide +kernel
example : Item.render (.conv [.group false [] [8]] false [] (.bin 0xfff#32))
    = [49, 49, 49, 49, 32, 49, 49, 49, 49, 49, 49, 49, 49] := by decide +kernel

/-- `"%5c"` ignores the width. -/
theorem C38_char_refuted : ¬ C38_full := by
  intro h
  have hc : PfCall (pfMem [37, 53, 99, 0] [0] 40) 100 40 10 [.conv [] false [5] (.chr 65#32)] :=
    .of_check (by decide) (by decide +kernel) (by decide +kernel) (by decide +kernel) (by decide +kernel)
  exact vsnprintf_wrong (junk := fun _ => 0#8) (t := [65#8]) hc rfl trivial (by decide)
    (by decide +kernel) (h (fun _ => 0#8) _ _ _ _ _ hc (by decide +kernel))

end Minilib

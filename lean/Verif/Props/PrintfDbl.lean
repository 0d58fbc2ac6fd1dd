import Verif.Props.Printf
/-
C37 and C38: the conversion %f.
-/

set_option autoImplicit false

namespace Minilib
open Mem Spec

attribute [local irreducible] Spec.one

/-- A format that is a single conversion. -/
theorem vsnprintf_single {junk : Nat → Byte} {m : Mem} {buf size fmt : Nat} {args : List PfArg}
    {mods : List FmtMod} {last : Chunk} {s : PfStep} (hk1 : ∀ c ∈ mods, c.Ok) (hk2 : last.Ok) (hch : last.ch ≠ 0#8)
    (hw : ((mods.foldl FmtFlags.mod FmtFlags.none).num last).width ≤ 2147483647)
    (hf : m.Holds fmt (37#8 :: (mods.flatMap FmtMod.text ++ last.text)))
    (hs : ∀ a fl, s ≠ .more a fl)
    (h : ∀ a, pfSwitch junk m fmt a buf 0 size args (toPf ((mods.foldl FmtFlags.mod FmtFlags.none).num last)) last.ch = .ok s) :
    vsnprintf junk m buf size fmt args = match s with
      | .done m b args => vsnprintfLoop junk m fmt ((mods.flatMap FmtMod.text ++ last.text).length + 1) buf b size args
      | .over m b => .ok (m, -(b : Int), true)
      | .more _ _ => .ub := by
  rw [holds_cons] at hf
  have := pfConvLoop_eq hk2 (h (0 + (mods.flatMap FmtMod.text ++ last.text).length)) hch (fun a fl hc => hs a fl (Res.ok.inj hc))
    mods 0 FmtFlags.none hk1 rfl hw hf.2 rfl
  unfold vsnprintf
  rw [vsnprintfLoop, Nat.add_zero, load_some hf.1]
  simp only [Res.ok_bind]
  rw [if_pos (by decide), pfItem, if_pos rfl]
  rw [show toPf FmtFlags.none = pfInit from rfl] at this
  rw [this]
  simp only [Res.ok_bind, Nat.zero_add]
  cases s with
  | done m b args => rfl
  | over m b => rfl
  | more a fl => exact absurd rfl (hs a fl)

/-- The end of a format. -/
theorem vsnprintfLoop_end {junk : Nat → Byte} {m : Mem} {fmt a buf b size : Nat} {args : List PfArg} (h : m (fmt + a) = some 0#8) :
    vsnprintfLoop junk m fmt a buf b size args = (m.store (buf + b) 0#8 >>= fun m => .ok (m, (b : Int), false)) := by
  rw [vsnprintfLoop, load_some h, Res.ok_bind, if_neg (by decide)]
  rfl

/-- The decimals asked for: 9 if there is no width. -/
def _root_.Spec.dblPrec (w : Nat) : Nat := if w = 0 then 9 else w

/-- A format that is one %f. -/
def _root_.Spec.dblFmt (mods : List FmtMod) (z : Bool) (ds : List Nat) (d : Int) : List Item := [.conv mods z ds (.dbl d)]

/-- What a single %f does. -/
theorem vsnprintf_dbl {junk : Nat → Byte} {m : Mem} {buf size fmt : Nat} {mods : List FmtMod} {z : Bool} {ds : List Nat} {d : Int} {w : Nat}
    (hc : PfCall m buf size fmt (Spec.dblFmt mods z ds d)) (hw : (convFlags mods z ds (.dbl d)).width = w) (hd : dblWhole d ≤ 2147483647)
    (hwl : w ≤ 2147483000) (hs : 27 < size) :
    ∃ g, AboutBillionths d g ∧ g ≤ 1000000000 ∧
      vsnprintf junk m buf size fmt [.dbl d] =
        ((m.write buf (wholePart d ++ [46#8] ++ billionths g ++ [0#8])).store
            (buf + ((wholePart d).length + 1 + ((billionths g).length - 9) + dblPrec w)) 0#8 >>= fun m' =>
          .ok (m', (((wholePart d).length + 1 + ((billionths g).length - 9) + dblPrec w : Nat) : Int), false)) := by
  obtain ⟨g, g1, g2, g3⟩ := C92_dtodec_partial (m := m) (buf := buf) (k := (dblPrec w : Int)) hd (by omega)
    (by unfold dblPrec; split <;> omega) (hc.mapped.mono (by omega))
  refine ⟨g, g1, g2, ?_⟩
  obtain ⟨hk1, hk2, -, hk4⟩ := (hc.items _ (List.mem_singleton.2 rfl)).1
  have hf := hc.format
  have htx : fmtText (Spec.dblFmt mods z ds d) = 37#8 :: (mods.flatMap FmtMod.text ++ Chunk.text ⟨z, ds, 102#8⟩) := by
    simp [fmtText, Spec.dblFmt, Item.text, Conv.char]
  have hdj := hc.disjoint
  rw [htx] at hf hdj
  obtain ⟨hf1, hf2⟩ := holds_append.1 hf
  rw [vsnprintf_single (mods := mods) (last := ⟨z, ds, 102#8⟩)
    (s := .done (m.write buf (wholePart d ++ [46#8] ++ billionths g ++ [0#8])) ((wholePart d).length + 1 + ((billionths g).length - 9) + dblPrec w) [])
    hk1 hk2 (by decide : (102#8 : Byte) ≠ 0#8) hk4 hf1 (by simp) (fun a => ?_)]
  · dsimp only
    have hb := billionths_le g2
    have hwp := wholePart_length hd
    refine vsnprintfLoop_end ?_
    rw [write_outside]
    · have := hf2 0 (by simp)
      simpa using this
    · simp only [List.length_append, List.length_cons, List.length_nil] at hdj ⊢
      omega
  · show pfDbl _ _ _ _ _ _ = _
    unfold pfDbl
    rw [if_neg (by omega)]
    have hp : (if (toPf ((mods.foldl FmtFlags.mod FmtFlags.none).num ⟨z, ds, 102#8⟩)).padding = 0 then (9 : Int) else
        (toPf ((mods.foldl FmtFlags.mod FmtFlags.none).num ⟨z, ds, 102#8⟩)).padding) = (dblPrec w : Int) := by
      have : (toPf ((mods.foldl FmtFlags.mod FmtFlags.none).num ⟨z, ds, 102#8⟩)).padding = (w : Int) := by
        rw [← hw]; rfl
      rw [this]
      unfold dblPrec
      by_cases h : w = 0 <;> simp [h]
    simp only [vaDbl, Res.ok_bind]
    rw [hp, Nat.add_zero, g3, Res.ok_bind]
    simp only [Res.pure_eq, Nat.zero_add]
    congr 2

/-- C37: a single %f with at most 13 decimals: nothing outside of the buffer is written, and in a buffer of at most 27 bytes nothing at
all (SIGSEGV is raised).
Partial: with more decimals asked for, the answer is a position behind the text, and the NUL is written there without a check
(`C37_double_wide_refuted`); the whole part has to be an `int` (`C37_double_large_refuted`). -/
theorem C37_double_partial {junk : Nat → Byte} {m : Mem} {buf size fmt : Nat} {mods : List FmtMod} {z : Bool} {ds : List Nat} {d : Int}
    (hc : PfCall m buf size fmt (Spec.dblFmt mods z ds d)) (hw : (convFlags mods z ds (.dbl d)).width ≤ 13) (hd : dblWhole d ≤ 2147483647) :
    (size ≤ 27 ∧ vsnprintf junk m buf size fmt [.dbl d] = .ok (m, 0, true)) ∨
    (27 < size ∧ ∃ (m' : Mem) (n : Nat), n < size ∧ vsnprintf junk m buf size fmt [.dbl d] = .ok (m', (n : Int), false) ∧
      m' (buf + n) = some 0#8 ∧ ∀ x, x < buf ∨ buf + size ≤ x → m' x = m x) := by
  by_cases hs : 27 < size
  · refine .inr ⟨hs, ?_⟩
    obtain ⟨g, -, g2, g3⟩ := vsnprintf_dbl (junk := junk) hc rfl hd (by omega) hs
    generalize (convFlags mods z ds (.dbl d)).width = w at *
    have hb := billionths_le g2
    have hwp := wholePart_length hd
    have hpr : dblPrec w ≤ 13 := by unfold dblPrec; split <;> omega
    have hll : (wholePart d ++ [46#8] ++ billionths g ++ [0#8]).length ≤ size := by simp; omega
    have hn : (wholePart d).length + 1 + ((billionths g).length - 9) + dblPrec w < size := by omega
    generalize (wholePart d).length + 1 + ((billionths g).length - 9) + dblPrec w = n at *
    generalize wholePart d ++ [46#8] ++ billionths g ++ [0#8] = l at *
    obtain ⟨c, hcx⟩ := (hc.mapped.write buf l) n hn
    rw [store_some hcx, Res.ok_bind] at g3
    refine ⟨_, n, hn, g3, by simp [Mem.upd], fun x hx => ?_⟩
    rw [Mem.upd, if_neg (by omega), write_outside _ _ _ _ (by omega)]
  · refine .inl ⟨by omega, ?_⟩
    obtain ⟨hk1, hk2, -, hk4⟩ := (hc.items _ (List.mem_singleton.2 rfl)).1
    have hf := hc.format
    have htx : fmtText (Spec.dblFmt mods z ds d) = 37#8 :: (mods.flatMap FmtMod.text ++ Chunk.text ⟨z, ds, 102#8⟩) := by
      simp [fmtText, Spec.dblFmt, Item.text, Conv.char]
    rw [htx] at hf
    rw [vsnprintf_single (mods := mods) (last := ⟨z, ds, 102#8⟩) (s := .over m 0)
      hk1 hk2 (by decide : (102#8 : Byte) ≠ 0#8) hk4 (holds_append.1 hf).1 (by simp) (fun a => ?_)]
    · rfl
    · show pfDbl _ _ _ _ _ _ = _
      unfold pfDbl
      rw [if_pos (by omega)]

/-- C38: the bytes a single %f with at most nine decimals leaves in the buffer: what dtodec makes of the number, cut off behind the
decimals asked for.
Partial: printf's text has six decimals by default, rounded, with zeros as digits and no NUL in between (`C38_double_nul_refuted`,
`C38_double_decimals_refuted`), and the width is not the number of decimals (`C38_double_width_refuted`). -/
theorem C38_double_partial {junk : Nat → Byte} {m : Mem} {buf size fmt : Nat} {mods : List FmtMod} {z : Bool} {ds : List Nat} {d : Int} {w : Nat}
    (hc : PfCall m buf size fmt (Spec.dblFmt mods z ds d)) (hw : (convFlags mods z ds (.dbl d)).width = w) (hw9 : w ≤ 9)
    (hd : dblWhole d ≤ 2147483647) (hs : 27 < size) :
    ∃ (m' : Mem) (g : Nat), AboutBillionths d g ∧ g ≤ 1000000000 ∧
      vsnprintf junk m buf size fmt [.dbl d] =
        .ok (m', ((wholePart d ++ [46#8] ++ (billionths g).take ((billionths g).length - 9 + dblPrec w)).length : Int), false) ∧
      m'.Holds buf (wholePart d ++ [46#8] ++ (billionths g).take ((billionths g).length - 9 + dblPrec w) ++ [0#8]) := by
  obtain ⟨g, g1, g2, g3⟩ := vsnprintf_dbl (junk := junk) hc hw hd (by omega) hs
  have hb := billionths_le g2
  have hwp := wholePart_length hd
  have hpr : dblPrec w ≤ 9 := by unfold dblPrec; split <;> omega
  have hln : (wholePart d ++ [46#8] ++ (billionths g).take ((billionths g).length - 9 + dblPrec w)).length
      = (wholePart d).length + 1 + ((billionths g).length - 9) + dblPrec w := by
    simp only [List.length_append, List.length_take, List.length_singleton]; omega
  obtain ⟨c, hcx⟩ := (hc.mapped.write buf (wholePart d ++ [46#8] ++ billionths g ++ [0#8]))
    ((wholePart d).length + 1 + ((billionths g).length - 9) + dblPrec w) (by omega)
  rw [store_some hcx, Res.ok_bind] at g3
  refine ⟨_, g, g1, g2, by rw [g3, hln], ?_⟩
  rw [holds_append, hln]
  constructor
  · intro i hi
    rw [hln] at hi
    rw [Mem.upd, if_neg (by omega), write_inside _ _ _ _ (by simp only [List.length_append, List.length_singleton]; omega)]
    congr 1
    rw [List.getElem_append_left (by simp only [List.length_append, List.length_singleton]; omega)]
    by_cases h : i < (wholePart d ++ [46#8]).length
    · rw [List.getElem_append_left h, List.getElem_append_left h]
    · rw [List.getElem_append_right (by omega), List.getElem_append_right (by omega), List.getElem_take]
  · exact holds_cons.2 ⟨by simp [Mem.upd], by intro i hi; simp at hi⟩

/-- C38: the string a single %f leaves for a positive number, or a number up to -1, is the whole part: the decimals are lost. -/
theorem C38_double_cut {junk : Nat → Byte} {m : Mem} {buf size fmt : Nat} {mods : List FmtMod} {z : Bool} {ds : List Nat} {d : Int}
    (hc : PfCall m buf size fmt (Spec.dblFmt mods z ds d)) (hw : (convFlags mods z ds (.dbl d)).width ≤ 9)
    (hd : dblWhole d ≤ 2147483647) (hs : 27 < size) (h1 : d ≤ -(one : Int) ∨ 0 < d) :
    ∃ (m' : Mem) (n : Int), vsnprintf junk m buf size fmt [.dbl d] = .ok (m', n, false) ∧
      m'.IsStr buf (signOf d ++ numeral 10 (dblWhole d)) := by
  obtain ⟨m', g, -, -, h2, h3⟩ := C38_double_partial (junk := junk) hc rfl hw hd hs
  refine ⟨m', _, h2, ?_⟩
  have hwp : wholePart d = (signOf d ++ numeral 10 (dblWhole d)) ++ [0#8] := by
    unfold wholePart; rw [if_pos h1]
  rw [hwp] at h3
  have hnz : ∀ b ∈ signOf d ++ numeral 10 (dblWhole d), b ≠ 0#8 := by
    intro b hb
    rcases List.mem_append.1 hb with hb | hb
    · unfold signOf at hb
      split at hb
      · simp at hb; subst hb; decide
      · simp at hb
    · exact dtxt_ne_zero (digitsOf_lt (by omega)) b hb
  generalize signOf d ++ numeral 10 (dblWhole d) = t at *
  simp only [List.append_assoc] at h3
  obtain ⟨a1, a2⟩ := holds_append.1 h3
  refine ⟨a1, ?_, hnz⟩
  exact (holds_cons.1 a2).1

/-- C37, as the code violates it: "%99f" of -0.5 in a buffer of 40 bytes writes the NUL behind the buffer. -/
theorem C37_double_wide_refuted : ¬ C37_full := by
  intro h
  have hc : PfCall (pfMem [37, 57, 57, 102, 0] [0] 40) 100 40 10 (Spec.dblFmt [] false [9, 9] (-2 ^ 1073)) :=
    .of_check (by decide) (by decide +kernel) (by decide +kernel) (by decide +kernel) (by decide +kernel)
  obtain ⟨l, ret, raised, h, _⟩ := h (fun _ => 0#8) _ _ _ _ _ hc
  have hq : wholePart (-2 ^ 1073) = [45#8, 48#8] := by unfold wholePart Spec.one; decide +kernel
  obtain ⟨g, -, g2, g3⟩ := vsnprintf_dbl (junk := fun _ => 0#8) (w := 99) hc rfl (by unfold dblWhole Spec.one; decide +kernel) (by omega) (by omega)
  have hb := billionths_le g2
  have hn : (pfMem [37, 57, 57, 102, 0] [0] 40).write 100 (wholePart (-2 ^ 1073) ++ [46#8] ++ billionths g ++ [0#8])
      (100 + ((wholePart (-2 ^ 1073)).length + 1 + ((billionths g).length - 9) + dblPrec 99)) = none := by
    rw [hq, show dblPrec 99 = 99 from rfl]
    rw [write_outside _ _ _ _ (by simp; omega)]
    rcases (by omega : (billionths g).length = 9 ∨ (billionths g).length = 10) with e | e <;> rw [e] <;> decide +kernel
  rw [store_none hn] at g3
  have h' : vsnprintf (fun _ => 0#8) (pfMem [37, 57, 57, 102, 0] [0] 40) 100 40 10 [.dbl (-2 ^ 1073)] = Res.ok (_, ret, raised) := h
  rw [g3] at h'
  cases h'

theorem pfDbl_ub {m : Mem} {buf size : Nat} {args : List PfArg} {d p : Int} (hd : dblToInt d = .ub) (hs : 27 < size) :
    pfDbl m buf 0 size (.dbl d :: args) p = .ub := by
  unfold pfDbl
  rw [if_neg (by omega)]
  simp only [vaDbl, Res.ok_bind, dtodec, hd]
  rfl

theorem vsnprintf_large {junk : Nat → Byte} {m : Mem} {buf size fmt : Nat} {mods : List FmtMod} {z : Bool} {ds : List Nat} {d : Int}
    (hc : PfCall m buf size fmt (Spec.dblFmt mods z ds d)) (hd : dblToInt d = .ub) (hs : 27 < size) :
    vsnprintf junk m buf size fmt [.dbl d] = .ub := by
  obtain ⟨hk1, hk2, -, hk4⟩ := (hc.items _ (List.mem_singleton.2 rfl)).1
  have hf := hc.format
  have htx : fmtText (Spec.dblFmt mods z ds d) = 37#8 :: (mods.flatMap FmtMod.text ++ Chunk.text ⟨z, ds, 102#8⟩) := by
    simp [fmtText, Spec.dblFmt, Item.text, Conv.char]
  rw [htx] at hf
  exact vsnprintf_ub (mods := mods) (last := ⟨z, ds, 102#8⟩) hk1 hk2 (by decide : (102#8 : Byte) ≠ 0#8) hk4 (holds_append.1 hf).1
    (fun a => pfDbl_ub hd hs)

/-- C37, as the code violates it: the conversion of 2147483648.0 to `int` is undefined. -/
theorem C37_double_large_refuted : ¬ C37_full := by
  intro h
  have hc : PfCall (pfMem [37, 102, 0] [0] 40) 100 40 10 (Spec.dblFmt [] false [] (2 ^ 1105)) :=
    .of_check (by decide) (by decide +kernel) (by decide +kernel) (by decide +kernel) (by decide +kernel)
  obtain ⟨l, ret, raised, h, _⟩ := h (fun _ => 0#8) _ _ _ _ _ hc
  have h' : vsnprintf (fun _ => 0#8) (pfMem [37, 102, 0] [0] 40) 100 40 10 [.dbl (2 ^ 1105)] = Res.ok (_, ret, raised) := h
  rw [vsnprintf_large hc (by decide +kernel) (by decide)] at h'
  cases h'

/-- A single %f that does not leave the text of the number. -/
theorem dbl_wrong {junk : Nat → Byte} {m : Mem} {buf size fmt : Nat} {mods : List FmtMod} {z : Bool} {ds : List Nat} {d : Int} {w : Nat} {r : List Byte}
    (hc : PfCall m buf size fmt (Spec.dblFmt mods z ds d)) (hw : (convFlags mods z ds (.dbl d)).width = w) (hw9 : w ≤ 9)
    (hd : dblWhole d ≤ 2147483647) (hs : 27 < size) (hr : render (Spec.dblFmt mods z ds d) = r)
    (hne : r.length ≠ (wholePart d).length + 1 + dblPrec w ∧ r.length ≠ (wholePart d).length + 2 + dblPrec w) :
    vsnprintf junk m buf size fmt [.dbl d]
      ≠ .ok (m.write buf (render (Spec.dblFmt mods z ds d) ++ [0#8]), ((render (Spec.dblFmt mods z ds d)).length : Int), false) := by
  intro h
  obtain ⟨m', g, -, g2, h2, -⟩ := C38_double_partial (junk := junk) hc hw hw9 hd hs
  have hb := billionths_le g2
  rw [h, hr] at h2
  have := (Prod.mk.inj (Prod.mk.inj (Res.ok.inj h2)).2).1
  have hpr : dblPrec w ≤ 9 := by unfold dblPrec; split <;> omega
  simp only [List.length_append, List.length_take, List.length_singleton] at this
  omega

/-- C38, as the code violates it: "%f" of 0.5 takes twelve characters ("0", a NUL, ".500000000") instead of eight ("0.500000"). -/
theorem C38_double_nul_refuted : ¬ C38_full := by
  intro h
  have hc : PfCall (pfMem [37, 102, 0] [0] 40) 100 40 10 (Spec.dblFmt [] false [] (2 ^ 1073)) :=
    .of_check (by decide) (by decide +kernel) (by decide +kernel) (by decide +kernel) (by decide +kernel)
  have hr : render (Spec.dblFmt [] false [] (2 ^ 1073)) = [48, 46, 53, 48, 48, 48, 48, 48] := by
    unfold Spec.dblFmt render Item.render Conv.render millionths Spec.one
    decide +kernel
  have hq : wholePart (2 ^ 1073) = [48#8, 0#8] := by unfold wholePart dblWhole Spec.one; decide +kernel
  refine dbl_wrong (junk := fun _ => 0#8) (w := 0) hc rfl (by omega) (by unfold dblWhole Spec.one; decide +kernel) (by omega) hr
    (by rw [hq]; decide) (h _ _ _ _ _ _ hc ?_)
  rw [hr]
  decide

/-- C38, as the code violates it: "%f" of -0.5 has nine decimals instead of six. -/
theorem C38_double_decimals_refuted : ¬ C38_full := by
  intro h
  have hc : PfCall (pfMem [37, 102, 0] [0] 40) 100 40 10 (Spec.dblFmt [] false [] (-2 ^ 1073)) :=
    .of_check (by decide) (by decide +kernel) (by decide +kernel) (by decide +kernel) (by decide +kernel)
  have hr : render (Spec.dblFmt [] false [] (-2 ^ 1073)) = [45, 48, 46, 53, 48, 48, 48, 48, 48] := by
    unfold Spec.dblFmt render Item.render Conv.render millionths Spec.one
    decide +kernel
  have hq : wholePart (-2 ^ 1073) = [45#8, 48#8] := by unfold wholePart Spec.one; decide +kernel
  refine dbl_wrong (junk := fun _ => 0#8) (w := 0) hc rfl (by omega) (by unfold dblWhole Spec.one; decide +kernel) (by omega) hr
    (by rw [hq]; decide) (h _ _ _ _ _ _ hc ?_)
  rw [hr]
  decide

/-- C38, as the code violates it: "%3f" of -0.5 has three decimals ("-0.500"): the width is taken for the number of decimals. -/
theorem C38_double_width_refuted : ¬ C38_full := by
  intro h
  have hc : PfCall (pfMem [37, 51, 102, 0] [0] 40) 100 40 10 (Spec.dblFmt [] false [3] (-2 ^ 1073)) :=
    .of_check (by decide) (by decide +kernel) (by decide +kernel) (by decide +kernel) (by decide +kernel)
  have hr : render (Spec.dblFmt [] false [3] (-2 ^ 1073)) = [45, 48, 46, 53, 48, 48, 48, 48, 48] := by
    unfold Spec.dblFmt render Item.render Conv.render millionths Spec.one
    decide +kernel
  have hq : wholePart (-2 ^ 1073) = [45#8, 48#8] := by unfold wholePart Spec.one; decide +kernel
  refine dbl_wrong (junk := fun _ => 0#8) (w := 3) hc rfl (by omega) (by unfold dblWhole Spec.one; decide +kernel) (by omega) hr
    (by rw [hq]; decide) (h _ _ _ _ _ _ hc ?_)
  rw [hr]
  decide

/-- `snprintf(buf, 40, "%3f", -12.625)`: the string is "-12". -/
example (junk : Nat → Byte) : ∃ (m' : Mem) (n : Int),
    vsnprintf junk (pfMem [37, 51, 102, 0] [0] 40) 100 40 10 [.dbl (-101 * 2 ^ 1071)] = .ok (m', n, false) ∧ m'.IsStr 100 [45#8, 49#8, 50#8] := by
  have h := C38_double_cut (junk := junk) (m := pfMem [37, 51, 102, 0] [0] 40) (buf := 100) (size := 40) (fmt := 10) (mods := [])
    (z := false) (ds := [3]) (d := -101 * 2 ^ 1071)
    (.of_check (by decide) (by decide +kernel) (by decide +kernel) (by decide +kernel) (by decide +kernel)) (by decide)
    (by unfold dblWhole Spec.one; decide +kernel) (by omega) (Or.inl (by unfold Spec.one; decide +kernel))
  rwa [show signOf (-101 * 2 ^ 1071) ++ numeral 10 (dblWhole (-101 * 2 ^ 1071)) = [45#8, 49#8, 50#8] by
    unfold dblWhole Spec.one; decide +kernel] at h

/-- The same call meets the hypotheses of `C37_double_partial` and `C38_double_partial`, and in a format with other items those of
`C37_vsnprintf_partial`. -/
example : (convFlags [] false [3] (.dbl (-101 * 2 ^ 1071))).width = 3 ∧ dblWhole (-101 * 2 ^ 1071) = 12 ∧
    SafeItem (.conv [] false [] (.dbl (-101 * 2 ^ 1071))) := by
  refine ⟨rfl, by unfold dblWhole Spec.one; decide +kernel, ?_⟩
  exact ⟨by unfold dblWhole Spec.one; decide +kernel, .inl rfl⟩

end Minilib

import Verif.Model.Termios
/-
Lemmas on terminal settings.
-/

set_option autoImplicit false

namespace Minilib
open Mem

theorem clearW_eq {m : Mem} {p : Nat} {w mask : BitVec 32} (h : m.HasW p w) : clearW m p mask = .ok (m.write p (wordBytes (w &&& ~~~mask))) := by
  unfold clearW
  rw [loadW_eq h, Res.ok_bind, storeW_eq _ h.mapped]

/-- What cfmakeraw clears. -/
def rawI : BitVec 32 := 0x5eb#32
def rawL : BitVec 32 := 0x804b#32
def rawC : BitVec 32 := 0x130#32

theorem cfmakeraw_spec {m : Mem} {tp : Nat} {i o c l : BitVec 32} (hi : m.HasW tp i) (ho : m.HasW (tp + 4) o) (hc : m.HasW (tp + 8) c)
    (hl : m.HasW (tp + 12) l) (hv : m.Mapped (tp + 22) 2) :
    ∃ m', cfmakeraw m tp = .ok m' ∧ m'.HasW tp (i &&& ~~~rawI) ∧ m'.HasW (tp + 4) (o &&& ~~~1#32) ∧ m'.HasW (tp + 8) ((c &&& ~~~rawC) ||| 0x30#32) ∧
      m'.HasW (tp + 12) (l &&& ~~~rawL) ∧ m' (tp + 22) = some 0#8 ∧ m' (tp + 23) = some 1#8 ∧
      ∀ a, (a < tp ∨ tp + 16 ≤ a) → a ≠ tp + 22 → a ≠ tp + 23 → m' a = m a := by
  have e1 : (0o1#32 ||| 0o2#32 ||| 0o10#32 ||| 0o40#32 ||| 0o100#32 ||| 0o200#32 ||| 0o400#32 ||| 0o2000#32) = rawI := by decide
  have e2 : (0o10#32 ||| 0o100#32 ||| 0o2#32 ||| 0o1#32 ||| 0o100000#32) = rawL := by decide
  have e3 : (0o60#32 ||| 0o400#32) = rawC := by decide
  unfold cfmakeraw
  rw [e1, e2, e3, clearW_eq hi, Res.ok_bind]
  have ho1 := ho.write (q := tp) (l := wordBytes (i &&& ~~~rawI)) (by simp)
  have hc1 := hc.write (q := tp) (l := wordBytes (i &&& ~~~rawI)) (by simp)
  have hl1 := hl.write (q := tp) (l := wordBytes (i &&& ~~~rawI)) (by simp)
  have hi1 := hasW_write_same m tp (i &&& ~~~rawI)
  have hv1 := hv.write tp (wordBytes (i &&& ~~~rawI))
  have f1 : ∀ a, (a < tp ∨ tp + 16 ≤ a) → (m.write tp (wordBytes (i &&& ~~~rawI))) a = m a := fun a h => write_outside _ _ _ _ (by simp; omega)
  generalize m.write tp (wordBytes (i &&& ~~~rawI)) = m1 at *
  rw [clearW_eq ho1, Res.ok_bind]
  have hi2 := hi1.write (q := tp + 4) (l := wordBytes (o &&& ~~~1#32)) (by simp)
  have hc2 := hc1.write (q := tp + 4) (l := wordBytes (o &&& ~~~1#32)) (by simp)
  have hl2 := hl1.write (q := tp + 4) (l := wordBytes (o &&& ~~~1#32)) (by simp)
  have ho2 := hasW_write_same m1 (tp + 4) (o &&& ~~~1#32)
  have hv2 := hv1.write (tp + 4) (wordBytes (o &&& ~~~1#32))
  have f2 : ∀ a, (a < tp ∨ tp + 16 ≤ a) → (m1.write (tp + 4) (wordBytes (o &&& ~~~1#32))) a = m a :=
    fun a h => by rw [write_outside _ _ _ _ (by simp; omega), f1 a h]
  generalize m1.write (tp + 4) (wordBytes (o &&& ~~~1#32)) = m2 at *
  rw [clearW_eq hl2, Res.ok_bind]
  have hi3 := hi2.write (q := tp + 12) (l := wordBytes (l &&& ~~~rawL)) (by simp)
  have hc3 := hc2.write (q := tp + 12) (l := wordBytes (l &&& ~~~rawL)) (by simp)
  have ho3 := ho2.write (q := tp + 12) (l := wordBytes (l &&& ~~~rawL)) (by simp)
  have hl3 := hasW_write_same m2 (tp + 12) (l &&& ~~~rawL)
  have hv3 := hv2.write (tp + 12) (wordBytes (l &&& ~~~rawL))
  have f3 : ∀ a, (a < tp ∨ tp + 16 ≤ a) → (m2.write (tp + 12) (wordBytes (l &&& ~~~rawL))) a = m a :=
    fun a h => by rw [write_outside _ _ _ _ (by simp; omega), f2 a h]
  generalize m2.write (tp + 12) (wordBytes (l &&& ~~~rawL)) = m3 at *
  rw [clearW_eq hc3, Res.ok_bind]
  have hi4 := hi3.write (q := tp + 8) (l := wordBytes (c &&& ~~~rawC)) (by simp)
  have ho4 := ho3.write (q := tp + 8) (l := wordBytes (c &&& ~~~rawC)) (by simp)
  have hl4 := hl3.write (q := tp + 8) (l := wordBytes (c &&& ~~~rawC)) (by simp)
  have hc4 := hasW_write_same m3 (tp + 8) (c &&& ~~~rawC)
  have hv4 := hv3.write (tp + 8) (wordBytes (c &&& ~~~rawC))
  have f4 : ∀ a, (a < tp ∨ tp + 16 ≤ a) → (m3.write (tp + 8) (wordBytes (c &&& ~~~rawC))) a = m a :=
    fun a h => by rw [write_outside _ _ _ _ (by simp; omega), f3 a h]
  generalize m3.write (tp + 8) (wordBytes (c &&& ~~~rawC)) = m4 at *
  rw [loadW_eq hc4, Res.ok_bind, storeW_eq _ hc4.mapped, Res.ok_bind]
  have hi5 := hi4.write (q := tp + 8) (l := wordBytes ((c &&& ~~~rawC) ||| 0o60#32)) (by simp)
  have ho5 := ho4.write (q := tp + 8) (l := wordBytes ((c &&& ~~~rawC) ||| 0o60#32)) (by simp)
  have hl5 := hl4.write (q := tp + 8) (l := wordBytes ((c &&& ~~~rawC) ||| 0o60#32)) (by simp)
  have hc5 := hasW_write_same m4 (tp + 8) ((c &&& ~~~rawC) ||| 0o60#32)
  have hv5 := hv4.write (tp + 8) (wordBytes ((c &&& ~~~rawC) ||| 0o60#32))
  have f5 : ∀ a, (a < tp ∨ tp + 16 ≤ a) → (m4.write (tp + 8) (wordBytes ((c &&& ~~~rawC) ||| 0o60#32))) a = m a :=
    fun a h => by rw [write_outside _ _ _ _ (by simp; omega), f4 a h]
  generalize m4.write (tp + 8) (wordBytes ((c &&& ~~~rawC) ||| 0o60#32)) = m5 at *
  obtain ⟨b0, hb0⟩ := hv5 0 (by omega)
  obtain ⟨b1, hb1⟩ := hv5 1 (by omega)
  have hb0' : (m5.upd (tp + 23) 1#8) (tp + 22) = some b0 := by rw [upd_ne (by omega)]; exact hb0
  rw [store_some (show m5 (tp + 17 + 6) = some b1 from hb1), Res.ok_bind, show tp + 17 + 5 = tp + 22 by omega, show tp + 17 + 6 = tp + 23 by omega, store_some hb0']
  refine ⟨_, rfl, ?_, ?_, ?_, ?_, by simp, by rw [upd_ne (by omega), upd_same], fun a h1 h2 h3 => by rw [upd_ne h2, upd_ne h3, f5 a h1]⟩
  · exact Holds.upd (Holds.upd hi5 _ (by simp)) _ (by simp)
  · exact Holds.upd (Holds.upd ho5 _ (by simp)) _ (by simp)
  · exact Holds.upd (Holds.upd hc5 _ (by simp)) _ (by simp)
  · exact Holds.upd (Holds.upd hl5 _ (by simp)) _ (by simp)

theorem mapped_loadBytes {m : Mem} : ∀ {n a : Nat}, m.Mapped a n → ∃ l, m.loadBytes a n = .ok l
  | 0, _, _ => ⟨_, rfl⟩
  | n + 1, a, h => by
    obtain ⟨⟨b, hb⟩, h⟩ := mapped_succ.1 h
    obtain ⟨l, hl⟩ := mapped_loadBytes h
    exact ⟨b :: l, by rw [loadBytes, load_some hb, Res.ok_bind, hl, Res.ok_bind]; rfl⟩

theorem length_halfBytes (w : BitVec 16) : (halfBytes w).length = 2 := rfl

theorem half_join (w : BitVec 16) : (w.extractLsb' 8 8 ++ w.extractLsb' 0 8 : BitVec 16) = w := by
  apply BitVec.eq_of_getLsbD_eq
  intro i hi
  simp only [BitVec.getLsbD_append, BitVec.getLsbD_extractLsb']
  by_cases h1 : i < 8
  · simp [h1]
  · simp [h1, show i - 8 < 8 by omega, show 8 + (i - 8) = i by omega]

theorem word_join (w : BitVec 32) : (w.extractLsb' 16 16 ++ w.setWidth 16 : BitVec 32) = w := by
  apply BitVec.eq_of_getLsbD_eq
  intro i hi
  simp only [BitVec.getLsbD_append, BitVec.getLsbD_extractLsb', BitVec.getLsbD_setWidth]
  by_cases h1 : i < 16
  · simp [h1]
  · simp [h1, show i - 16 < 16 by omega, show 16 + (i - 16) = i by omega]

theorem loadH_half {m : Mem} {a : Nat} {w : BitVec 16} (h : m.Holds a (halfBytes w)) : loadH m a = .ok w := by
  unfold halfBytes at h
  rw [holds_cons, holds_cons] at h
  unfold loadH
  rw [load_some h.1, Res.ok_bind, load_some h.2.1, Res.ok_bind, half_join]
  rfl

theorem loadH_bytes {m : Mem} {a : Nat} {b0 b1 : Byte} (h0 : m a = some b0) (h1 : m (a + 1) = some b1) : loadH m a = .ok (b1 ++ b0) := by
  unfold loadH
  rw [load_some h0, Res.ok_bind, load_some h1, Res.ok_bind]
  rfl

theorem wordBytes_and (v w : BitVec 32) : wordBytes (v &&& w) = List.zipWith (· &&& ·) (wordBytes v) (wordBytes w) := by
  simp [wordBytes, BitVec.extractLsb'_and]

theorem wordBytes_or (v w : BitVec 32) : wordBytes (v ||| w) = List.zipWith (· ||| ·) (wordBytes v) (wordBytes w) := by
  simp [wordBytes, BitVec.extractLsb'_or]

/-- Half words put together with a mask that leaves the upper byte or both. -/
theorem half_low (w : BitVec 32) : (w.setWidth 16).extractLsb' 0 8 = w.extractLsb' 0 8 := by
  apply BitVec.eq_of_getLsbD_eq
  intro i hi
  simp [BitVec.getLsbD_extractLsb', BitVec.getLsbD_setWidth, hi]
  omega

theorem half_high (w : BitVec 32) : (w.setWidth 16).extractLsb' 8 8 = w.extractLsb' 8 8 := by
  apply BitVec.eq_of_getLsbD_eq
  intro i hi
  simp [BitVec.getLsbD_extractLsb', BitVec.getLsbD_setWidth, hi]
  omega

/-- A 32 bit word from its upper half and two bytes. -/
theorem word_parts (w : BitVec 32) : (w.extractLsb' 16 16 ++ (w.extractLsb' 8 8 ++ w.extractLsb' 0 8 : BitVec 16) : BitVec 32) = w := by
  rw [← half_low, ← half_high, half_join, word_join]

theorem low_bit (w : BitVec 32) : (w.extractLsb' 16 16 ++ (w.extractLsb' 8 8 ++ (w.extractLsb' 0 8 &&& 0xfe#8) : BitVec 16) : BitVec 32) = w &&& ~~~1#32 := by
  have h := word_parts (w &&& ~~~1#32)
  rw [BitVec.extractLsb'_and, BitVec.extractLsb'_and, BitVec.extractLsb'_and, show (~~~1#32).extractLsb' 16 16 = BitVec.allOnes 16 by decide,
    show (~~~1#32).extractLsb' 8 8 = BitVec.allOnes 8 by decide, show (~~~1#32).extractLsb' 0 8 = 0xfe#8 by decide, BitVec.and_allOnes, BitVec.and_allOnes] at h
  exact h

end Minilib

import Verif.C.Mem
/-
Multi-byte objects: little-endian 32 bit words in byte memory (amd64).
-/

set_option autoImplicit false

namespace Mem

/-- Read the `n` bytes at `a`. -/
def loadBytes (m : Mem) (a : Nat) : Nat → Res (List Byte)
  | 0 => pure []
  | n + 1 => do
    let b ← m.load a
    let l ← loadBytes m (a + 1) n
    pure (b :: l)

/-- Store the bytes `l` at `a`. -/
def storeBytes (m : Mem) (a : Nat) : List Byte → Res Mem
  | [] => pure m
  | b :: l => do
    let m ← m.store a b
    storeBytes m (a + 1) l

/-- The four bytes of a 32 bit word, least significant first. -/
def wordBytes (w : BitVec 32) : List Byte :=
  [w.extractLsb' 0 8, w.extractLsb' 8 8, w.extractLsb' 16 8, w.extractLsb' 24 8]

/-- The word made of (at least) four bytes, least significant first. -/
def bytesWord (l : List Byte) : BitVec 32 :=
  match l with
  | [b0, b1, b2, b3] => b3 ++ b2 ++ b1 ++ b0
  | _ => 0

/-- `*(int*)a` as rvalue.  The address may have been computed below 0 (wild pointer): undefined. -/
def loadW (m : Mem) (a : Int) : Res (BitVec 32) :=
  if a < 0 then .ub else do
    let l ← loadBytes m a.toNat 4
    pure (bytesWord l)

/-- `*(int*)a = w`. -/
def storeW (m : Mem) (a : Int) (w : BitVec 32) : Res Mem :=
  if a < 0 then .ub else storeBytes m a.toNat (wordBytes w)

/-- The word `w` is stored at `a`. -/
def HasW (m : Mem) (a : Nat) (w : BitVec 32) : Prop := m.Holds a (wordBytes w)

instance (m : Mem) (a : Nat) (w : BitVec 32) : Decidable (m.HasW a w) :=
  inferInstanceAs (Decidable (m.Holds _ _))

@[simp] theorem length_wordBytes (w : BitVec 32) : (wordBytes w).length = 4 := rfl

theorem bytesWord_wordBytes (w : BitVec 32) : bytesWord (wordBytes w) = w := by
  simp only [wordBytes, bytesWord]
  apply BitVec.eq_of_getLsbD_eq
  intro i hi
  simp only [BitVec.getLsbD_append, BitVec.getLsbD_extractLsb']
  by_cases h1 : i < 8
  · simp [h1]
  · by_cases h2 : i < 16
    · have e : i - 8 < 8 := by omega
      simp [h1, e, show 8 + (i - 8) = i by omega]
    · by_cases h3 : i < 24
      · have e : ¬ i - 8 < 8 := by omega
        have e2 : i - 8 - 8 < 8 := by omega
        simp [h1, e, e2, show 16 + (i - 8 - 8) = i by omega]
      · have e : ¬ i - 8 < 8 := by omega
        have e2 : ¬ i - 8 - 8 < 8 := by omega
        have e3 : i - 8 - 8 - 8 < 8 := by omega
        simp [h1, e, e2, e3, show 24 + (i - 8 - 8 - 8) = i by omega]

theorem wordBytes_inj {v w : BitVec 32} (h : wordBytes v = wordBytes w) : v = w := by
  rw [← bytesWord_wordBytes v, h, bytesWord_wordBytes]

theorem loadBytes_holds {m : Mem} {a : Nat} {l : List Byte} (h : m.Holds a l) :
    loadBytes m a l.length = .ok l := by
  induction l generalizing a with
  | nil => rfl
  | cons b l ih =>
    rw [holds_cons] at h
    simp [loadBytes, load_some h.1, ih h.2]

theorem storeBytes_mapped {m : Mem} {a : Nat} {l : List Byte} (h : m.Mapped a l.length) :
    storeBytes m a l = .ok (m.write a l) := by
  induction l generalizing a m with
  | nil => simp [storeBytes]
  | cons b l ih =>
    obtain ⟨⟨c, hc⟩, h⟩ := mapped_succ.1 h
    rw [storeBytes, store_some hc, Res.ok_bind, ih (h.upd _ _), write_cons]

theorem loadW_eq {m : Mem} {a : Nat} {w : BitVec 32} (h : m.HasW a w) : m.loadW (a : Int) = .ok w := by
  have := loadBytes_holds h
  rw [length_wordBytes] at this
  simp [loadW, this, bytesWord_wordBytes]

theorem storeW_eq {m : Mem} {a : Nat} (w : BitVec 32) (h : m.Mapped a 4) :
    m.storeW (a : Int) w = .ok (m.write a (wordBytes w)) := by
  have : ¬ (a : Int) < 0 := by omega
  simp only [storeW, if_neg this, Int.toNat_natCast]
  exact storeBytes_mapped h

theorem HasW.mapped {m : Mem} {a : Nat} {w : BitVec 32} (h : m.HasW a w) : m.Mapped a 4 :=
  Holds.mapped h

theorem hasW_write_same (m : Mem) (a : Nat) (w : BitVec 32) : (m.write a (wordBytes w)).HasW a w :=
  write_holds _ _ _

theorem HasW.write {m : Mem} {a : Nat} {w : BitVec 32} (h : m.HasW a w) {q : Nat} {l : List Byte}
    (hd : q + l.length ≤ a ∨ a + 4 ≤ q) : (m.write q l).HasW a w :=
  Holds.write h hd

theorem HasW.unique {m : Mem} {a : Nat} {v w : BitVec 32} (h : m.HasW a v) (h' : m.HasW a w) :
    v = w := by
  have h1 := loadW_eq h
  rw [loadW_eq h'] at h1
  injection h1 with h1
  exact h1.symm

theorem wordBytes_append (b0 b1 b2 b3 : Byte) :
    wordBytes (b3 ++ b2 ++ b1 ++ b0) = [b0, b1, b2, b3] := by
  simp only [wordBytes, List.cons.injEq, and_true]
  refine ⟨?_, ?_, ?_, ?_⟩ <;> apply BitVec.eq_of_getLsbD_eq <;> intro i hi <;>
    simp only [BitVec.getLsbD_extractLsb', BitVec.getLsbD_append]
  · simp [hi]
  · simp [hi, show ¬ 8 + i < 8 by omega]
  · simp [hi, show ¬ 16 + i < 8 by omega, show ¬ 16 + i - 8 < 8 by omega,
      show 16 + i - 8 - 8 = i by omega]
  · simp [hi, show ¬ 24 + i < 8 by omega, show ¬ 24 + i - 8 < 8 by omega,
      show ¬ 24 + i - 8 - 8 < 8 by omega, show 24 + i - 8 - 8 - 8 = i by omega]

theorem mapped_hasW {m : Mem} {a : Nat} (h : m.Mapped a 4) : ∃ w, m.HasW a w := by
  obtain ⟨b0, h0⟩ := h 0 (by omega)
  obtain ⟨b1, h1⟩ := h 1 (by omega)
  obtain ⟨b2, h2⟩ := h 2 (by omega)
  obtain ⟨b3, h3⟩ := h 3 (by omega)
  refine ⟨b3 ++ b2 ++ b1 ++ b0, ?_⟩
  unfold HasW
  rw [wordBytes_append]
  simp only [holds_cons]
  exact ⟨h0, h1, by simpa using h2, by simpa using h3, holds_nil _ _⟩

end Mem

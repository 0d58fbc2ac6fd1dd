import Verif.Spec.Streams
import Verif.Lemmas.Str
/-
Lemmas on streams.
-/

set_option autoImplicit false

namespace Minilib
open Mem Spec

theorem sshift_byte (c : BitVec 32) : BitVec.ofInt 8 (c.sshiftRight 24).toInt = c.extractLsb' 24 8 := by
  have h : BitVec.ofInt 8 (c.sshiftRight 24).toInt = (c.sshiftRight 24).signExtend 8 := rfl
  rw [h, BitVec.signExtend_eq_setWidth_of_le _ (by decide)]
  apply BitVec.eq_of_getLsbD_eq
  intro i hi
  simp only [BitVec.getLsbD_setWidth, BitVec.getLsbD_sshiftRight, BitVec.getLsbD_extractLsb']
  have h1 : 24 + i < 32 := by omega
  have h2 : ¬ 32 ≤ i := by omega
  simp [hi, h1, h2]

theorem sshift_zero (c : BitVec 32) : c.sshiftRight 24 = 0#32 ↔ c.extractLsb' 24 8 = 0#8 := by
  constructor
  · intro h
    rw [← sshift_byte, h]
    rfl
  · intro h
    apply BitVec.eq_of_getLsbD_eq
    intro i hi
    have hb : ∀ j, j < 8 → c.getLsbD (24 + j) = false := by
      intro j hj
      have := congrArg (fun x => BitVec.getLsbD x j) h
      simpa [BitVec.getLsbD_extractLsb', hj] using this
    simp only [BitVec.getLsbD_sshiftRight, BitVec.getLsbD_zero]
    have h2 : ¬ 32 ≤ i := by omega
    by_cases h3 : 24 + i < 32
    · have := hb i (by omega)
      simp [h2, h3, this, -BitVec.getLsbD_eq_getElem]
    · have h4 := hb 7 (by omega)
      have h5 : c.msb = false := by
        rw [BitVec.msb_eq_getLsbD_last]
        exact h4
      simp [h3, h5]

theorem clear_byte (c : BitVec 32) : (c &&& ~~~ UNGETC_MASK).extractLsb' 24 8 = 0#8 := by
  apply BitVec.eq_of_getLsbD_eq
  intro i hi
  have : UNGETC_MASK.getLsbD (24 + i) = true := by
    have : ∀ i < 8, UNGETC_MASK.getLsbD (24 + i) = true := by decide
    exact this i hi
  simp [BitVec.getLsbD_extractLsb', this]

theorem clear_low (c : BitVec 32) : low24 (c &&& ~~~ UNGETC_MASK) = low24 c := by
  apply BitVec.eq_of_getLsbD_eq
  intro i hi
  have : UNGETC_MASK.getLsbD i = false := by
    have : ∀ i < 24, UNGETC_MASK.getLsbD i = false := by decide
    exact this i hi
  have h2 : i < 32 := by omega
  simp [low24, BitVec.getLsbD_setWidth, this, hi, h2, -BitVec.getLsbD_eq_getElem]

theorem unget_byte (c x : BitVec 32) : ((c &&& ~~~ UNGETC_MASK) ||| (x <<< 24)).extractLsb' 24 8 = x.setWidth 8 := by
  apply BitVec.eq_of_getLsbD_eq
  intro i hi
  have : UNGETC_MASK.getLsbD (24 + i) = true := by
    have : ∀ i < 8, UNGETC_MASK.getLsbD (24 + i) = true := by decide
    exact this i hi
  have h1 : 24 + i < 32 := by omega
  have h3 : ¬ 24 + i < 24 := by omega
  simp [BitVec.getLsbD_extractLsb', this, hi, h1, h3, BitVec.getLsbD_shiftLeft, BitVec.getLsbD_setWidth, -BitVec.getLsbD_eq_getElem]

theorem unget_low (c x : BitVec 32) : low24 ((c &&& ~~~ UNGETC_MASK) ||| (x <<< 24)) = low24 c := by
  apply BitVec.eq_of_getLsbD_eq
  intro i hi
  have : UNGETC_MASK.getLsbD i = false := by
    have : ∀ i < 24, UNGETC_MASK.getLsbD i = false := by decide
    exact this i hi
  have h2 : i < 32 := by omega
  simp [low24, BitVec.getLsbD_setWidth, this, hi, h2, BitVec.getLsbD_shiftLeft, -BitVec.getLsbD_eq_getElem]

theorem sysRead_one {K : RKernel} (hK : NoErr K) (s : Input) :
    (s.data = [] → (sysRead K s 1).2.1 = [] ∧ (sysRead K s 1).2.2.data = []) ∧
    (∀ b d, s.data = b :: d → (sysRead K s 1).2.1 = [b] ∧ (sysRead K s 1).2.2.data = d) := by
  have h := hK s.calls 1
  have h1 : ¬ K s.calls 1 < 0 := by omega
  unfold sysRead
  rw [if_neg h1]
  constructor
  · intro hd
    simp [readLen, hd]
  · intro b d hd
    have : readLen K s 1 = 1 := by
      simp only [readLen, hd, List.length_cons]
      omega
    simp [this, hd]

/-- `fgetc`, as a `char`, takes the next byte of the stream, or yields 0 at the end. -/
theorem fgetc_view {K : RKernel} (hK : NoErr K) (ung : Bool) (F : Stream) :
    (avail ung F = [] → (fgetc K ung F).1 = 0 ∧ avail ung (fgetc K ung F).2 = []) ∧
    (∀ b d, avail ung F = b :: d → BitVec.ofInt 8 (fgetc K ung F).1 = b ∧ avail ung (fgetc K ung F).2 = d) ∧
    low24 (fgetc K ung F).2.cell = low24 F.cell := by
  unfold fgetc
  by_cases h : ung = true ∧ F.cell.sshiftRight 24 ≠ 0#32
  · rw [if_pos h]
    have hp : pushed ung F.cell = [F.cell.extractLsb' 24 8] := by
      unfold pushed
      rw [if_pos ⟨h.1, fun e => h.2 ((sshift_zero _).2 e)⟩]
    refine ⟨?_, ?_, clear_low _⟩
    · intro ha; simp [avail, hp] at ha
    · intro b d ha
      simp only [avail, hp, List.singleton_append, List.cons.injEq] at ha
      refine ⟨by rw [sshift_byte, ha.1], ?_⟩
      simp [avail, pushed, clear_byte, ha.2]
  · rw [if_neg h]
    have hp : pushed ung F.cell = [] := by
      unfold pushed
      rw [if_neg]
      rintro ⟨a, b⟩
      exact h ⟨a, fun e => b ((sshift_zero _).1 e)⟩
    obtain ⟨h1, h2⟩ := sysRead_one hK F.input
    refine ⟨?_, ?_, ?_⟩
    · intro ha
      simp only [avail, hp, List.nil_append] at ha
      obtain ⟨a1, a2⟩ := h1 ha
      rw [a1]
      simp [avail, hp, a2]
    · intro b d ha
      simp only [avail, hp, List.nil_append] at ha
      obtain ⟨a1, a2⟩ := h2 b d ha
      rw [a1]
      refine ⟨?_, by simp [avail, hp, a2]⟩
      show BitVec.ofInt 8 (b.toNat : Int) = b
      simp
    · split <;> rfl

theorem fgetc_byte {K : RKernel} (hK : NoErr K) (ung : Bool) (F : Stream) :
    BitVec.ofInt 8 (fgetc K ung F).1 = (avail ung F).headD 0#8 ∧ avail ung (fgetc K ung F).2 = (avail ung F).tail := by
  obtain ⟨h1, h2, _⟩ := fgetc_view hK ung F
  cases h : avail ung F with
  | nil => obtain ⟨a, b⟩ := h1 h; simp [a, b]
  | cons b d => obtain ⟨a, b⟩ := h2 b d h; simp [a, b]

end Minilib

import Verif.Model.Endian
import Verif.Props.Network
/-
C79: the conversions of endian.h.
-/

set_option autoImplicit false

/-- The bytes of an integer of `n` bytes as the little-endian machine keeps them in memory. -/
def Spec.inMemory (n : Nat) {w : Nat} (x : BitVec w) : List (BitVec 8) := (List.range n).map fun k => x.extractLsb' (8 * k) 8

/-- The big-endian representation of a number: the most significant byte first. -/
def Spec.bigEndian (n : Nat) (x : Nat) : List (BitVec 8) := (List.range n).map fun k => BitVec.ofNat 8 (x / 256 ^ (n - 1 - k))

/-- The little-endian representation. -/
def Spec.littleEnd (n : Nat) (x : Nat) : List (BitVec 8) := (List.range n).map fun k => BitVec.ofNat 8 (x / 256 ^ k)

namespace Minilib

theorem swap16_byte (x : BitVec 16) : ∀ k, k < 2 → (bswap16 x).extractLsb' (8 * k) 8 = x.extractLsb' (8 * (1 - k)) 8 := by
  intro k hk
  apply BitVec.eq_of_getLsbD_eq
  intro i hi
  match k, hk with
  | 0, _ | 1, _ =>
    simp only [bswap16, BitVec.getLsbD_extractLsb', BitVec.getLsbD_setWidth, BitVec.getLsbD_or, BitVec.getLsbD_shiftLeft, BitVec.getLsbD_ushiftRight]
    match i, hi with
    | 0, _ | 1, _ | 2, _ | 3, _ | 4, _ | 5, _ | 6, _ | 7, _ => simp

theorem swap32_byte (x : BitVec 32) : ∀ k, k < 4 → (bswap32 x).extractLsb' (8 * k) 8 = x.extractLsb' (8 * (3 - k)) 8 := by
  intro k hk
  apply BitVec.eq_of_getLsbD_eq
  intro i hi
  match k, hk with
  | 0, _ | 1, _ | 2, _ | 3, _ =>
    simp only [bswap32, BitVec.getLsbD_extractLsb', BitVec.getLsbD_or, BitVec.getLsbD_and, BitVec.getLsbD_shiftLeft, BitVec.getLsbD_ushiftRight]
    match i, hi with
    | 0, _ | 1, _ | 2, _ | 3, _ | 4, _ | 5, _ | 6, _ | 7, _ => simp

theorem swap64_byte (x : BitVec 64) : ∀ k, k < 8 → (bswap64 x).extractLsb' (8 * k) 8 = x.extractLsb' (8 * (7 - k)) 8 := by
  intro k hk
  by_cases h : k < 4
  · have e := swap32_byte ((x >>> 32).setWidth 32) k h
    apply BitVec.eq_of_getLsbD_eq
    intro i hi
    have := congrArg (fun v => v.getLsbD i) e
    simp only [BitVec.getLsbD_extractLsb', BitVec.getLsbD_setWidth, BitVec.getLsbD_ushiftRight, hi, decide_true, Bool.true_and] at this
    simp only [bswap64, BitVec.add_zero, BitVec.getLsbD_extractLsb', BitVec.getLsbD_or, BitVec.getLsbD_shiftLeft, BitVec.getLsbD_setWidth, hi, decide_true, Bool.true_and]
    rw [this]
    have h1 : 8 * k + i < 32 := by omega
    have h2 : 8 * (3 - k) + i < 32 := by omega
    have h3 : 32 + (8 * (3 - k) + i) = 8 * (7 - k) + i := by omega
    simp [h1, h2, h3, show 8 * k + i < 64 by omega]
  · have e := swap32_byte (x.setWidth 32) (k - 4) (by omega)
    apply BitVec.eq_of_getLsbD_eq
    intro i hi
    have := congrArg (fun v => v.getLsbD i) e
    simp only [BitVec.getLsbD_extractLsb', BitVec.getLsbD_setWidth, hi, decide_true, Bool.true_and] at this
    simp only [bswap64, BitVec.add_zero, BitVec.getLsbD_extractLsb', BitVec.getLsbD_or, BitVec.getLsbD_shiftLeft, BitVec.getLsbD_setWidth, hi, decide_true, Bool.true_and]
    rw [show 8 * k + i - 32 = 8 * (k - 4) + i by omega, this, show 8 * (3 - (k - 4)) + i = 8 * (7 - k) + i by omega]
    have h0 : (bswap32 ((x >>> 32).setWidth 32)).getLsbD (8 * k + i) = false := BitVec.getLsbD_of_ge _ _ (by omega)
    rw [h0]
    simp [show ¬ 8 * k + i < 32 by omega, show 8 * k + i < 64 by omega, show 8 * (k - 4) + i < 64 by omega, show 8 * (7 - k) + i < 32 by omega]

theorem extract_ofNat {w : Nat} (x : BitVec w) (k : Nat) : x.extractLsb' (8 * k) 8 = BitVec.ofNat 8 (x.toNat / 256 ^ k) := by
  rw [← BitVec.toNat_inj, BitVec.extractLsb'_toNat, Nat.shiftRight_eq_div_pow, Nat.pow_mul]
  simp

theorem inMemory_little {w : Nat} (n : Nat) (x : BitVec w) : Spec.inMemory n x = Spec.littleEnd n x.toNat :=
  List.map_congr_left fun _ _ => extract_ofNat _ _

theorem inMemory_big {w : Nat} {n : Nat} {x y : BitVec w} (h : ∀ k, k < n → y.extractLsb' (8 * k) 8 = x.extractLsb' (8 * (n - 1 - k)) 8) :
    Spec.inMemory n y = Spec.bigEndian n x.toNat :=
  List.map_congr_left fun k hk => by rw [h k (List.mem_range.mp hk), extract_ofNat]

/-- C79: the byte swaps: in memory the result is the big-endian representation of the number. -/
theorem C79_bswap (a : BitVec 16) (b : BitVec 32) (c : BitVec 64) :
    Spec.inMemory 2 (bswap16 a) = Spec.bigEndian 2 a.toNat ∧ Spec.inMemory 4 (bswap32 b) = Spec.bigEndian 4 b.toNat ∧
      Spec.inMemory 8 (bswap64 c) = Spec.bigEndian 8 c.toNat :=
  ⟨inMemory_big (n := 2) (swap16_byte a), inMemory_big (n := 4) (swap32_byte b), inMemory_big (n := 8) (swap64_byte c)⟩

theorem eq_of_bytes {n : Nat} {x y : BitVec (8 * n)} (h : ∀ k, k < n → x.extractLsb' (8 * k) 8 = y.extractLsb' (8 * k) 8) : x = y := by
  apply BitVec.eq_of_getLsbD_eq
  intro i hi
  have := congrArg (fun v => v.getLsbD (i % 8)) (h (i / 8) (by omega))
  simpa [show i % 8 < 8 by omega, show 8 * (i / 8) + i % 8 = i by omega] using this

/-- C79: swapping twice gives the number back. -/
theorem C79_involution (a : BitVec 16) (b : BitVec 32) (c : BitVec 64) : bswap16 (bswap16 a) = a ∧ bswap32 (bswap32 b) = b ∧ bswap64 (bswap64 c) = c := by
  refine ⟨eq_of_bytes (n := 2) fun k hk => ?_, eq_of_bytes (n := 4) fun k hk => ?_, eq_of_bytes (n := 8) fun k hk => ?_⟩
  · rw [swap16_byte _ k hk, swap16_byte _ (1 - k) (by omega), show 1 - (1 - k) = k by omega]
  · rw [swap32_byte _ k hk, swap32_byte _ (3 - k) (by omega), show 3 - (3 - k) = k by omega]
  · rw [swap64_byte _ k hk, swap64_byte _ (7 - k) (by omega), show 7 - (7 - k) = k by omega]

/-- The claim of endian.h: `htobe…` give the big-endian representation, `htole…` the little-endian one, and `be…toh`, `le…toh` (the same macros)
are their inverses. -/
def EndianOk (order : Nat) : Prop :=
  (∀ x, Spec.inMemory 2 (htobe16 order x) = Spec.bigEndian 2 x.toNat) ∧ (∀ x, Spec.inMemory 4 (htobe32 order x) = Spec.bigEndian 4 x.toNat) ∧
  (∀ x, Spec.inMemory 8 (htobe64 order x) = Spec.bigEndian 8 x.toNat) ∧ (∀ x, Spec.inMemory 2 (htole16 order x) = Spec.littleEnd 2 x.toNat) ∧
  (∀ x, Spec.inMemory 4 (htole32 order x) = Spec.littleEnd 4 x.toNat) ∧ (∀ x, Spec.inMemory 8 (htole64 order x) = Spec.littleEnd 8 x.toNat) ∧
  (∀ x, htobe16 order (htobe16 order x) = x) ∧ (∀ x, htobe32 order (htobe32 order x) = x) ∧ (∀ x, htobe64 order (htobe64 order x) = x) ∧
  (∀ x, htole16 order (htole16 order x) = x) ∧ (∀ x, htole32 order (htole32 order x) = x) ∧ (∀ x, htole64 order (htole64 order x) = x)

/-- C79, full statement: as the header is compiled. -/
def C79_endian_full : Prop := EndianOk byteOrderHere

/-- C79 (partial: `__BYTE_ORDER` defined as 1234 before the header is included). -/
theorem C79_endian_partial : EndianOk 1234 := by
  refine ⟨fun x => (C79_bswap x 0 0).1, fun x => (C79_bswap 0 x 0).2.1, fun x => (C79_bswap 0 0 x).2.2, fun x => inMemory_little 2 x, fun x => inMemory_little 4 x,
    fun x => inMemory_little 8 x, fun x => (C79_involution x 0 0).1, fun x => (C79_involution 0 x 0).2.1, fun x => (C79_involution 0 0 x).2.2,
    fun _ => rfl, fun _ => rfl, fun _ => rfl⟩

/-- C79 fails: `__BYTE_ORDER` is not defined, so that the conversions are chosen for a big-endian machine. -/
theorem C79_endian_refuted : ¬ C79_endian_full := fun h => absurd (h.2.1 1#32) (by decide)

/-- C79: as the header is compiled, the `htobe…` leave every number as it is and the `htole…` reverse its bytes: exactly the wrong way round. -/
theorem C79_reversed_refuted (a : BitVec 16) (b : BitVec 32) (c : BitVec 64) :
    htobe16 byteOrderHere a = a ∧ htobe32 byteOrderHere b = b ∧ htobe64 byteOrderHere c = c ∧
    Spec.inMemory 2 (htole16 byteOrderHere a) = Spec.bigEndian 2 a.toNat ∧ Spec.inMemory 4 (htole32 byteOrderHere b) = Spec.bigEndian 4 b.toNat ∧
    Spec.inMemory 8 (htole64 byteOrderHere c) = Spec.bigEndian 8 c.toNat :=
  ⟨rfl, rfl, rfl, C79_bswap a b c⟩

/-- C79: the swaps agree with htonl and htons. -/
theorem C79_agrees (a : BitVec 16) (b : BitVec 32) : htons a = bswap16 a ∧ htonl b = bswap32 b := by
  constructor
  · rw [← BitVec.toNat_inj, C30_htons]
    have h0 := congrArg BitVec.toNat (swap16_byte a 0 (by decide))
    have h1 := congrArg BitVec.toNat (swap16_byte a 1 (by decide))
    simp only [BitVec.extractLsb'_toNat, Nat.shiftRight_eq_div_pow] at h0 h1
    norm_num at h0 h1
    have h2 : (bswap16 a).toNat < 65536 := (bswap16 a).isLt
    have h3 : a.toNat < 65536 := a.isLt
    generalize (bswap16 a).toNat = y at *
    generalize a.toNat = x at *
    omega
  · apply Mem.wordBytes_inj
    rw [C30_htonl]
    have h0 := swap32_byte b 0 (by decide)
    have h1 := swap32_byte b 1 (by decide)
    have h2 := swap32_byte b 2 (by decide)
    have h3 := swap32_byte b 3 (by decide)
    simp only [Nat.reduceMul, Nat.reduceSub] at h0 h1 h2 h3
    simp only [Mem.wordBytes, h0, h1, h2, h3]
    rfl

example : bswap16 0x1234#16 = 0x3412#16 ∧ bswap32 0x01020304#32 = 0x04030201#32 ∧ bswap64 0x0102030405060708#64 = 0x0807060504030201#64 ∧
    Spec.bigEndian 4 0x01020304 = [1, 2, 3, 4] := by decide

end Minilib

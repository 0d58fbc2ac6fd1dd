import Verif.Model.Pack
/-
Property C105: words put together by the macros of the headers come apart again.
-/

set_option autoImplicit false

namespace Spec

/-- A word of two fields: `hi` above the lowest `k` bits, `lo` in them. -/
def twoFields (k hi lo : Nat) : Nat := hi * 2 ^ k + lo

/-- The names of the groups of tags in the dynamic section, in the order of the array in which a program loader
keeps them. -/
inductive Group | plain | version | extra | val | addr
  deriving DecidableEq

end Spec

namespace Minilib
open Spec

/-! ### Symbols and relocations -/

/-- A symbol's info byte, packed from any binding and type, gives both back; and packing what any byte gives is that
byte. -/
theorem C105_st : (∀ bind : Nat, bind < 16 → ∀ type : Nat, type < 16 →
      (ELF_ST_INFO (BitVec.ofNat 32 bind) (BitVec.ofNat 32 type)).toNat = twoFields 4 bind type ∧
      (ELF_ST_BIND (ELF_ST_INFO (BitVec.ofNat 32 bind) (BitVec.ofNat 32 type))).toNat = bind ∧
      (ELF_ST_TYPE (ELF_ST_INFO (BitVec.ofNat 32 bind) (BitVec.ofNat 32 type))).toNat = type) ∧
    (∀ i : BitVec 8, (ELF_ST_INFO (ELF_ST_BIND (i.setWidth 32)) (ELF_ST_TYPE (i.setWidth 32))).setWidth 8 = i) ∧
    ∀ o : BitVec 32, (ELF_ST_VISIBILITY o).toNat = o.toNat % 4 := by
  refine ⟨by decide +kernel, by decide +kernel, fun o => ?_⟩
  rw [ELF_ST_VISIBILITY, BitVec.toNat_and]
  exact Nat.and_two_pow_sub_one_eq_mod _ 2

/-- A relocation's info word (32 bits): symbol numbers below 2^24 and types below 256 come back; and packing what any
word gives is that word. -/
theorem C105_r32 : (∀ sym type : BitVec 32, sym.toNat < 2 ^ 24 → type.toNat < 256 →
      (ELF32_R_INFO sym type).toNat = twoFields 8 sym.toNat type.toNat ∧
      ELF32_R_SYM (ELF32_R_INFO sym type) = sym ∧ ELF32_R_TYPE (ELF32_R_INFO sym type) = type) ∧
    ∀ i : BitVec 32, ELF32_R_INFO (ELF32_R_SYM i) (ELF32_R_TYPE i) = i ∧
      i.toNat = twoFields 8 (ELF32_R_SYM i).toNat (ELF32_R_TYPE i).toNat := by
  have hty : ∀ i : BitVec 32, (i &&& 0xff#32).toNat = i.toNat % 256 := fun i => by
    rw [BitVec.toNat_and]
    exact Nat.and_two_pow_sub_one_eq_mod _ 8
  have hinfo : ∀ s t : BitVec 32, (ELF32_R_INFO s t).toNat = (s.toNat * 256 % 2 ^ 32 + t.toNat % 256) % 2 ^ 32 := fun s t => by
    rw [ELF32_R_INFO, BitVec.toNat_add, BitVec.toNat_shiftLeft, Nat.shiftLeft_eq, hty]
  have hsym : ∀ i : BitVec 32, (ELF32_R_SYM i).toNat = i.toNat / 256 := fun i => by
    rw [ELF32_R_SYM, BitVec.toNat_ushiftRight, Nat.shiftRight_eq_div_pow]
  have htyp : ∀ i : BitVec 32, (ELF32_R_TYPE i).toNat = i.toNat % 256 := hty
  refine ⟨fun s t hs ht => ?_, fun i => ?_⟩
  · have h : (ELF32_R_INFO s t).toNat = s.toNat * 256 + t.toNat := by rw [hinfo]; omega
    refine ⟨by rw [h, twoFields], ?_, ?_⟩
    · apply BitVec.eq_of_toNat_eq; rw [hsym, h]; omega
    · apply BitVec.eq_of_toNat_eq; rw [htyp, h]; omega
  · have := i.isLt
    refine ⟨?_, by rw [hsym, htyp, twoFields]; omega⟩
    apply BitVec.eq_of_toNat_eq
    rw [hinfo, hsym, htyp]
    omega

/-- The same with 64 bits: any 32 bit symbol number and any 32 bit type. -/
theorem C105_r64 : (∀ sym type : BitVec 32,
      (ELF64_R_INFO (sym.setWidth 64) type).toNat = twoFields 32 sym.toNat type.toNat ∧
      ELF64_R_SYM (ELF64_R_INFO (sym.setWidth 64) type) = sym.setWidth 64 ∧
      ELF64_R_TYPE (ELF64_R_INFO (sym.setWidth 64) type) = type.setWidth 64) ∧
    ∀ i : BitVec 64, ELF64_R_INFO (ELF64_R_SYM i) ((ELF64_R_TYPE i).setWidth 32) = i ∧
      i.toNat = twoFields 32 (ELF64_R_SYM i).toNat (ELF64_R_TYPE i).toNat := by
  have hty : ∀ i : BitVec 64, (ELF64_R_TYPE i).toNat = i.toNat % 2 ^ 32 := fun i => by
    rw [ELF64_R_TYPE, BitVec.toNat_and]
    exact Nat.and_two_pow_sub_one_eq_mod _ 32
  have hinfo : ∀ (s : BitVec 64) (t : BitVec 32),
      (ELF64_R_INFO s t).toNat = (s.toNat * 2 ^ 32 % 2 ^ 64 + t.toNat) % 2 ^ 64 := fun s t => by
    have := t.isLt
    rw [ELF64_R_INFO, BitVec.toNat_add, BitVec.toNat_shiftLeft, Nat.shiftLeft_eq, BitVec.toNat_setWidth,
      Nat.mod_eq_of_lt (a := t.toNat) (by omega)]
  have hsym : ∀ i : BitVec 64, (ELF64_R_SYM i).toNat = i.toNat / 2 ^ 32 := fun i => by
    rw [ELF64_R_SYM, BitVec.toNat_ushiftRight, Nat.shiftRight_eq_div_pow]
  refine ⟨fun s t => ?_, fun i => ?_⟩
  · have h1 := s.isLt
    have h2 := t.isLt
    have h3 : (s.setWidth 64).toNat = s.toNat := by rw [BitVec.toNat_setWidth]; omega
    have h4 : (t.setWidth 64).toNat = t.toNat := by rw [BitVec.toNat_setWidth]; omega
    have h : (ELF64_R_INFO (s.setWidth 64) t).toNat = s.toNat * 2 ^ 32 + t.toNat := by rw [hinfo, h3]; omega
    refine ⟨by rw [h, twoFields], ?_, ?_⟩
    · apply BitVec.eq_of_toNat_eq; rw [hsym, h, h3]; omega
    · apply BitVec.eq_of_toNat_eq; rw [hty, h, h4]; omega
  · have := i.isLt
    refine ⟨?_, by rw [hsym, hty, twoFields]; omega⟩
    apply BitVec.eq_of_toNat_eq
    rw [hinfo, hsym, BitVec.toNat_setWidth, hty]
    omega

example : ELF32_R_INFO 0x123456#32 7#32 = 0x12345607#32 ∧ ELF64_R_INFO 5#64 0x80000001#32 = 0x580000001#64 := by decide

/-! ### Tags of the dynamic section -/

/-- The position of a tag in its group. -/
def dtIndex : Group → Int → Int
  | .plain, t => t
  | .version, t => DT_VERSIONTAGIDX t
  | .extra, t => ((DT_EXTRATAGIDX (BitVec.ofInt 32 t)).toNat : Int)
  | .val, t => DT_VALTAGIDX t
  | .addr, t => DT_ADDRTAGIDX t

/-- The tags of a group. -/
def dtTags : Group → List (String × Int)
  | .plain => dtPlain
  | .version => dtVersion
  | .extra => dtExtra
  | .val => dtVal
  | .addr => dtAddr

/-- The size of a group. -/
def dtSize : Group → Nat
  | .plain => DT_NUM
  | .version => DT_VERSIONTAGNUM
  | .extra => DT_EXTRANUM
  | .val => DT_VALNUM
  | .addr => DT_ADDRNUM

/-- The tags of each group have positions inside of the group, no two the same. -/
theorem C105_tags : ∀ g : Group, (∀ t ∈ dtTags g, 0 ≤ dtIndex g t.2 ∧ dtIndex g t.2 < dtSize g) ∧
    (dtTags g).Pairwise fun s t => dtIndex g s.2 ≠ dtIndex g t.2 := by
  intro g
  cases g <;> decide +kernel

/-- `DT_EXTRATAGIDX` counts down from the highest tag. -/
theorem C105_extra (t : BitVec 32) (h : 0x40000000 ≤ t.toNat) (h2 : t.toNat ≤ 0x7fffffff) :
    (DT_EXTRATAGIDX t).toNat = 0x7fffffff - t.toNat := by
  have h1 : (t <<< 1).toNat = t.toNat * 2 := by
    rw [BitVec.toNat_shiftLeft, Nat.shiftLeft_eq]; omega
  have h3 : ((t <<< 1).sshiftRight 1).toInt = (t.toNat : Int) - 2 ^ 31 := by
    rw [BitVec.toInt_sshiftRight, BitVec.toInt_eq_toNat_cond, h1, if_neg (by omega), Int.shiftRight_eq_div_pow]
    omega
  have h4 : DT_EXTRATAGIDX t = BitVec.ofInt 32 (0x7fffffff - (t.toNat : Int)) := by
    rw [DT_EXTRATAGIDX]
    apply BitVec.eq_of_toInt_eq
    rw [BitVec.toInt_sub, BitVec.toInt_neg, h3, BitVec.toInt_ofInt]
    have : (1#32).toInt = 1 := by decide
    rw [this]
    simp only [Int.bmod_def]
    omega
  rw [h4, BitVec.toNat_ofInt]
  omega

example : DT_EXTRATAGIDX 0x7ffffffd#32 = 2#32 := by decide

/-! ### Octets of IP -/

/-- The service octet comes apart into code point and congestion bits, or precedence, type of service and one bit that
must be zero; an option into copied flag, class and number: the parts have no bit in common and are the whole. -/
theorem C105_octets (x : BitVec 8) :
    (IPTOS_DSCP x + IPTOS_ECN x = x ∧ IPTOS_DSCP x &&& IPTOS_ECN x = 0#8) ∧
    (IPTOS_PREC x + IPTOS_TOS x + (x &&& 1#8) = x ∧ IPTOS_PREC x &&& IPTOS_TOS x = 0#8) ∧
    (IPOPT_COPIED x + IPOPT_CLASS x + IPOPT_NUMBER x = x) ∧
    (IPTOS_ECN x).toNat = x.toNat % 4 ∧ (IPTOS_DSCP x).toNat = x.toNat / 4 * 4 ∧
    (IPTOS_PREC x).toNat = x.toNat / 32 * 32 ∧ IPTOS_CLASS x = IPTOS_PREC x ∧
    (IPOPT_COPIED x).toNat = x.toNat / 128 * 128 ∧ (IPOPT_CLASS x).toNat = x.toNat / 32 % 4 * 32 ∧
    (IPOPT_NUMBER x).toNat = x.toNat % 32 := by
  revert x
  decide +kernel

/-- The code points: assured forwarding of class `c` and drop precedence `d` is 8c+2d (RFC 2597), expedited forwarding
46 (RFC 3246), class selector `c` is 8c (RFC 2474), each two bits to the left; no congestion bits. -/
theorem C105_dscp : (∀ p ∈ dscpAF, p.2.2.toNat = (8 * p.1 + 2 * p.2.1) * 4) ∧
    (dscpAF.map fun p => (p.1, p.2.1)) = [1, 2, 3, 4].flatMap (fun c => [1, 2, 3].map fun d => (c, d)) ∧
    dscpEF.toNat = 46 * 4 ∧ (∀ c, c < 8 → dscpCS[c]? = some (BitVec.ofNat 8 (8 * c * 4))) ∧
    ∀ p ∈ dscpAF, IPTOS_DSCP p.2.2 = p.2.2 ∧ IPTOS_ECN p.2.2 = 0#8 := by decide

/-- The options of RFC 791, 1063, 2113: copied flag, class and number. -/
def _root_.Spec.ipOption : List (String × Bool × Nat × Nat) :=
  [("IPOPT_EOL", false, 0, 0), ("IPOPT_NOP", false, 0, 1), ("IPOPT_RR", false, 0, 7), ("IPOPT_TS", false, 2, 4),
   ("IPOPT_SECURITY", true, 0, 2), ("IPOPT_LSRR", true, 0, 3), ("IPOPT_SATID", true, 0, 8), ("IPOPT_SSRR", true, 0, 9),
   ("IPOPT_RA", true, 0, 20)]

theorem C105_options : ipOptions.map (fun o => (o.1, IPOPT_COPIED o.2 != 0#8, (IPOPT_CLASS o.2).toNat / 32,
    (IPOPT_NUMBER o.2).toNat)) = ipOption := by decide

/-! ### Control characters -/

/-- The control character of a letter, small or capital, is its number in the alphabet. -/
theorem C105_ctrl (k : Nat) (h : k < 26) : (CTRL (BitVec.ofNat 32 (97 + k))).toNat = k + 1 ∧
    (CTRL (BitVec.ofNat 32 (65 + k))).toNat = k + 1 := by
  revert k
  decide

example : (ELF_ST_INFO 1#32 2#32).toNat = 18 ∧ (ELF_ST_VISIBILITY 7#32).toNat = 3 :=
  ⟨(C105_st.1 1 (by decide) 2 (by decide)).1, C105_st.2.2 7#32⟩
example : dscpCS[6]? = some 0xc0#8 := C105_dscp.2.2.2.1 6 (by decide)
example : (CTRL 99#32).toNat = 3 := (C105_ctrl 2 (by decide)).1

end Minilib

import Verif.C.Mem
/-
An executable (ELF, 64 bit, little endian), as the kernel sees it: the positions of the fields are those of the ELF specification.
-/

set_option autoImplicit false

namespace Spec

/-- The byte at a position of a file. -/
def byteAt (f : List Byte) (x : Nat) : Byte := f.getD x 0#8

/-- The number of `n` bytes at a position. -/
def num (f : List Byte) (off : Nat) : Nat → Nat
  | 0 => 0
  | n + 1 => (byteAt f off).toNat + 256 * num f (off + 1) n

/-- Where the program headers are, and how many. -/
def phOff (f : List Byte) : Nat := num f 32 8
def phNum (f : List Byte) : Nat := num f 56 2

/-- The position of program header `i`, and its fields. -/
def phAt (f : List Byte) (i : Nat) : Nat := phOff f + 56 * i
def segType (f : List Byte) (i : Nat) : Nat := num f (phAt f i) 4
def segOff (f : List Byte) (i : Nat) : Nat := num f (phAt f i + 8) 8
def segSize (f : List Byte) (i : Nat) : Nat := num f (phAt f i + 32) 8

/-- Segment `i` brings bytes of the file into memory. -/
def Loads (f : List Byte) (i : Nat) : Prop := i < phNum f ∧ segType f i ≠ 0 ∧ segSize f i ≠ 0

/-- A statically linked executable whose headers and segments lie in the file. -/
structure Executable (f : List Byte) : Prop where
  class64 : num f 4 1 = 2
  version : num f 6 1 = 1
  exec : num f 16 2 = 2
  version2 : num f 20 4 = 1
  entsize : num f 54 2 = 56
  nonempty : phNum f ≠ 0
  long : 64 ≤ f.length
  behind : 64 ≤ phOff f
  table : phOff f + 56 * phNum f ≤ f.length
  segments : ∀ i, Loads f i → segOff f i + segSize f i ≤ f.length

/-- A position of the file that belongs to one of the headers. -/
def InHeaders (f : List Byte) (x : Nat) : Prop := x < 64 ∨ (phOff f ≤ x ∧ x < phOff f + 56 * phNum f)

/-- `out` is the program `f`. -/
structure SameProgram (f out : List Byte) : Prop where
  /-- Identification, type, machine, version and entry point; flags, sizes and number of program headers. -/
  header : ∀ x, (x < 32 ∨ (48 ≤ x ∧ x < 58)) → byteAt out x = byteAt f x
  /-- The program headers have moved by whole pages at most. -/
  moved : ∃ d, phOff f = phOff out + 4096 * d
  behind : 64 ≤ phOff out
  table : phOff out + 56 * phNum f ≤ out.length
  /-- All fields of the program headers but the offsets. -/
  kept : ∀ i < phNum f, ∀ x, (x < 8 ∨ (16 ≤ x ∧ x < 56)) → byteAt out (phAt out i + x) = byteAt f (phAt f i + x)
  /-- The segments have moved by whole pages at most. -/
  pages : ∀ i, Loads f i → ∃ d, segOff f i = segOff out i + 4096 * d
  inside : ∀ i, Loads f i → segOff out i + segSize f i ≤ out.length
  /-- Their contents are the same, except for the headers. -/
  contents : ∀ i, Loads f i → ∀ k < segSize f i, ¬ InHeaders f (segOff f i + k) → byteAt out (segOff out i + k) = byteAt f (segOff f i + k)
  /-- A segment that contains the headers contains the new ones at the same place. -/
  hdrIn : ∀ i, Loads f i → ∀ k < segSize f i, segOff f i + k < 64 → segOff out i = segOff f i
  tableIn : ∀ i, Loads f i → ∀ k < segSize f i, phOff f ≤ segOff f i + k → segOff f i + k < phOff f + 56 * phNum f →
    segOff out i + phOff f = segOff f i + phOff out

/-- Nothing else is left in `out`: no section table, and no byte but zeros outside of the headers and the segments. -/
structure Stripped (f out : List Byte) : Prop where
  sections : num out 40 8 = 0 ∧ num out 58 2 = 0 ∧ num out 60 2 = 0 ∧ num out 62 2 = 0
  rest : ∀ x, ¬ InHeaders out x → (∀ i, Loads out i → ¬ (segOff out i ≤ x ∧ x < segOff out i + segSize out i)) → byteAt out x = 0#8
  shorter : out.length ≤ f.length

end Spec

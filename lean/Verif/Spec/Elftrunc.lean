import Verif.Spec.Shrinkelf
/-
ELF files of both classes (little endian): positions of the fields as in the ELF specification.
-/

set_option autoImplicit false

namespace Spec

/-- The sizes of the headers, the size of addresses, and the positions of fields. -/
structure ElfLayout where
  ehdr : Nat
  phdr : Nat
  addr : Nat
  phoff : Nat
  phnum : Nat
  shoff : Nat
  shnum : Nat
  shstrndx : Nat
  offset : Nat
  filesz : Nat

def elf32 : ElfLayout := ⟨52, 32, 4, 28, 44, 32, 48, 50, 4, 16⟩
def elf64 : ElfLayout := ⟨64, 56, 8, 32, 56, 40, 60, 62, 8, 32⟩

/-- The class is in byte 4. -/
def elfLayout (f : List Byte) : ElfLayout := if byteAt f 4 = 2#8 then elf64 else elf32

def elfPhOff (f : List Byte) : Nat := num f (elfLayout f).phoff (elfLayout f).addr
def elfPhNum (f : List Byte) : Nat := num f (elfLayout f).phnum 2
def elfPhAt (f : List Byte) (i : Nat) : Nat := elfPhOff f + (elfLayout f).phdr * i
def elfType (f : List Byte) (i : Nat) : Nat := num f (elfPhAt f i) 4

/-- The end of segment `i` in the file. -/
def elfEnd (f : List Byte) (i : Nat) : Nat :=
  num f (elfPhAt f i + (elfLayout f).offset) (elfLayout f).addr + num f (elfPhAt f i + (elfLayout f).filesz) (elfLayout f).addr

/-- Segment `i` is loaded (PT_LOAD). -/
def ElfLoads (f : List Byte) (i : Nat) : Prop := i < elfPhNum f ∧ elfType f i = 1

/-- Segment `i` names an interpreter, or is for the dynamic linker. -/
def ElfDynamic (f : List Byte) (i : Nat) : Prop := i < elfPhNum f ∧ (elfType f i = 2 ∨ elfType f i = 3)

/-- An ELF file whose headers lie in the file. -/
structure ElfFile (f : List Byte) : Prop where
  magic : f.take 4 = [127#8, 69#8, 76#8, 70#8]
  long : (elfLayout f).ehdr ≤ f.length
  table : elfPhOff f + (elfLayout f).phdr * elfPhNum f ≤ f.length

/-- The fields of the header that describe the section table. -/
def ElfSections (f : List Byte) (x : Nat) : Prop :=
  ((elfLayout f).shoff ≤ x ∧ x < (elfLayout f).shoff + (elfLayout f).addr) ∨
  ((elfLayout f).shnum ≤ x ∧ x < (elfLayout f).shnum + 2) ∨ ((elfLayout f).shstrndx ≤ x ∧ x < (elfLayout f).shstrndx + 2)

/-- `e` is the end of the last loaded segment. -/
def ElfLast (f : List Byte) (e : Nat) : Prop := (∃ i, ElfLoads f i ∧ elfEnd f i = e) ∧ ∀ i, ElfLoads f i → elfEnd f i ≤ e

end Spec

import Verif.Model.Shrinkelf
/-
Model of /repo/old/tools/elftrunc.c, which cuts an executable off behind its last loaded segment.

Files are lists of bytes under their names (no links); `read` and `write` of a regular file do not fail and are not interrupted.  The structs are the bytes
read into them; a field whose bytes were not read is undefined.  `trunc32` and `trunc64` are the same but for the types, so there is one definition for both
with the sizes and positions as a parameter.
-/

set_option autoImplicit false

namespace Minilib
open Mem

/-- The files there are. -/
abbrev Files := List Byte → Option (List Byte)

def Files.set (fs : Files) (n : List Byte) (c : Option (List Byte)) : Files := fun x => if x = n then c else fs x

/-- What differs between `trunc32` and `trunc64`: sizeof and offsetof of headers/common/elf.h, the number of values of `len`, and the status of
the program when the file ends too early. -/
structure TruncKind where
  eh : Nat
  ph : Nat
  w : Nat
  phoff : Nat
  phnum : Nat
  shoff : Nat
  shnum : Nat
  shstr : Nat
  pOff : Nat
  pSize : Nat
  size : Nat
  eof : Int

/-- old/tools/elftrunc.c:40-92 with Elf32_Ehdr and Elf32_Phdr; `while(len && n)` ends at the end of the file. -/
def kind32 : TruncKind := ⟨52, 32, 4, 28, 44, 32, 48, 50, 4, 16, 4294967296, 0⟩

/-- old/tools/elftrunc.c:95-146 with Elf64_Ehdr and Elf64_Phdr; "read error" (142) at the end of the file. -/
def kind64 : TruncKind := ⟨64, 56, 8, 32, 56, 40, 60, 62, 8, 32, 18446744073709551616, 2⟩

/-- A field of a struct that was read, maybe not completely. -/
def known (s : List Byte) (off n : Nat) : Res Nat := if off + n ≤ s.length then pure (field s off n) else .ub

/-- old/tools/elftrunc.c:55-69 and 109-123: the loop over the program headers (`c` are left), from position `pos`; `ph` is the struct from the last
time.  Nothing stands for "File is not static !". -/
def truncScan (k : TruncKind) (f : List Byte) : Nat → Nat → List Byte → Nat → Res (Option Nat)
  | 0, _, _, len => pure (some len)
  | c + 1, pos, ph, len =>
    let b := readAt f pos k.ph
    if b = [] then pure (some len)
    else do
      let ph := b ++ ph.drop b.length
      let t ← known ph 0 4
      if t = 2 ∨ t = 3 then pure none
      else if t = 1 then do
        let o ← known ph k.pOff k.w
        let z ← known ph k.pSize k.w
        let e := (o + z) % k.size
        truncScan k f c (pos + b.length) ph (if len < e then e else len)
      else truncScan k f c (pos + b.length) ph len

/-- old/tools/elftrunc.c:82-89 and 136-143: copy `len` bytes; the files are read and written under their names, since they may be one. -/
def truncCopy (k : TruncKind) (fs : Files) (a out : List Byte) (inpos outpos len : Nat) : Files × Int :=
  if hl : len = 0 then (fs, 0)
  else
    let b := readAt ((fs a).getD []) inpos 4096
    if hb : b = [] then (fs, k.eof)
    else
      let n := if len < b.length then len else b.length
      truncCopy k (fs.set out (some (writeAt ((fs out).getD []) outpos (b.take n)))) a out (inpos + b.length) (outpos + n) (len - n)
termination_by len
decreasing_by
  have : 0 < (readAt ((fs a).getD []) inpos 4096).length := List.length_pos_iff.2 hb
  split <;> omega

/-- old/tools/elftrunc.c:40-92 `trunc32` and 95-146 `trunc64`: the files and the status; `f` is the contents of file `a`, `can` tells whether `out` can be
opened. -/
def truncFile (k : TruncKind) (fs : Files) (can : Bool) (a out f : List Byte) : Res (Files × Int) :=
  let eh := readAt f 0 k.eh
  if eh = [] then pure (fs, 3)
  else do
    let po ← known eh k.phoff k.w
    let p ← seekSet f eh.length po
    let num ← known eh k.phnum 2
    let r ← truncScan k f num (p.getD eh.length) [] 0
    match r with
    | none => pure (fs, 3)
    | some len =>
      let eh' := (setField (setField (setField eh k.shoff k.w 0) k.shnum 2 0) k.shstr 2 0).take eh.length
      if can = false then pure (fs, 2)
      else pure (truncCopy k (fs.set out (some eh')) a out eh.length eh.length ((len + k.size - eh.length) % k.size))

/-- ".trunc" -/
def truncSuffix : List Byte := [46, 116, 114, 117, 110, 99]

/-- old/tools/elftrunc.c:163-164: the name of the new file. -/
def truncName (a : List Byte) : List Byte := a.take 1014 ++ truncSuffix

/-- old/tools/elftrunc.c:155-171 and 174: the source is `a`. -/
def truncOne (fs : Files) (can : Bool) (a : List Byte) : Res (Files × Int) :=
  match fs a with
  | none => pure (fs, 1)
  | some f =>
    let b := readAt f 0 16
    if b = [] then pure (fs, 2)
    else
      let buf := b ++ List.replicate (16 - b.length) 0#8
      if buf.take 4 ≠ [127#8, 69#8, 76#8, 70#8] then pure (fs, 2)
      else if buf.getD 4 0#8 = 2#8 then truncFile kind64 fs can a (truncName a) f
      else truncFile kind32 fs can a (truncName a) f

/-- old/tools/elftrunc.c:148-175 `main`; `args` are the arguments without the first.  `rename` does not fail. -/
def truncMain (fs : Files) (can : Bool) (args : List (List Byte)) : Res (Files × Int) :=
  match args with
  | [a] => truncOne fs can a
  | [a, d] => do
    let r ← truncOne fs can a
    if r.2 = 0 ∧ d ≠ truncName a then pure ((r.1.set d (r.1 (truncName a))).set (truncName a) none, 0) else pure r
  | _ => pure (fs, 0)

/-- old/tools/elftrunc.c:163-164: the same in memory; `fn` is the array of 1024 bytes, `lit` the address of the literal. -/
def truncNameMem (m : Mem) (fn a lit : Nat) : Res Mem := do
  let r ← strncpy m fn a 1014
  let q ← strcat r.1 fn lit
  pure q.1

end Minilib

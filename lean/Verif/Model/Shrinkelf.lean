import Verif.Model.Str
import Verif.Model.Syscall
/-
Model of /repo/tools/shrinkelf.c, which strips an executable of everything that is not loaded.

Files are lists of bytes; `read` of a regular file delivers what there is (errors and interruptions of `read` and `write` are left out), `lseek` is the one
of the library.  The structs `Elf64_Ehdr` and `Elf64_Phdr` are the bytes they consist of (little endian, no padding).  Unsigned arithmetic wraps.
-/

set_option autoImplicit false

namespace Minilib

/-- Conversion to `Elf64_Off`, and arithmetic in it. -/
def u64 (x : Nat) : Nat := x % 18446744073709551616
def sub64 (a b : Nat) : Nat := (a + 18446744073709551616 - b) % 18446744073709551616

/-- Conversion to `Elf64_Word`. -/
def u32 (x : Nat) : Nat := x % 4294967296

/-- The number in some bytes. -/
def leNum : List Byte → Nat
  | [] => 0
  | b :: l => b.toNat + 256 * leNum l

/-- The bytes of a number. -/
def leBytes : Nat → Nat → List Byte
  | 0, _ => []
  | n + 1, v => BitVec.ofNat 8 v :: leBytes n (v / 256)

/-- A field of a struct. -/
def field (s : List Byte) (off n : Nat) : Nat := leNum ((s.drop off).take n)

/-- `memcpy` of `src` into a buffer, and the assignment to a field. -/
def patch (buf : List Byte) (pos : Nat) (src : List Byte) : List Byte := buf.take pos ++ src ++ buf.drop (pos + src.length)
def setField (s : List Byte) (off n v : Nat) : List Byte := patch s off (leBytes n v)

/-- The array of program headers, as the structs. -/
def entries : Nat → List Byte → List (List Byte)
  | 0, _ => []
  | n + 1, l => l.take 56 :: entries n (l.drop 56)

/-- What the kernel delivers for `read` at a position. -/
def readAt (f : List Byte) (pos n : Nat) : List Byte := (f.drop pos).take n

/-- What `write` at a position leads to; behind the end the kernel fills with zeros. -/
def writeAt (f : List Byte) (pos : Nat) (b : List Byte) : List Byte :=
  (f ++ List.replicate (pos - f.length) 0#8).take pos ++ b ++ f.drop (pos + b.length)

/-- `lseek(fd, off, SEEK_SET)`: the new position, or nothing when -1 is answered.  `off` is converted to the `int` the function takes. -/
def seekSet (f : List Byte) (pos off : Nat) : Res (Option Nat) := do
  let r ← lseek true 0#32 ⟨pos, f.length⟩ (BitVec.ofNat 32 off).toInt 0 0
  if r.2.1 = -1 then pure none else pure (some r.1.pos)

/-- tools/shrinkelf.c:280-332 `read_hdrs`: the ELF header and the program headers; nothing stands for `err`, which ends the program.  `malloc` does not fail. -/
def readHdrs (f : List Byte) : Res (Option (List Byte × List (List Byte))) :=
  let eh := readAt f 0 64
  if eh.length < 64 then pure none
  else if field eh 4 1 ≠ 2 then pure none
  else if field eh 6 1 ≠ 1 then pure none
  else if field eh 16 2 ≠ 2 then pure none
  else if field eh 20 4 ≠ 1 then pure none
  else if field eh 32 8 = 0 then pure none
  else if field eh 54 2 ≠ 56 then pure none
  else if field eh 56 2 = 0 then pure none
  else do
    let p ← seekSet f 64 (field eh 32 8)
    match p with
    | none => pure none
    | some pos =>
      let b := readAt f pos (field eh 56 2 * 56)
      if b.length < field eh 56 2 * 56 then pure none else pure (some (eh, entries (field eh 56 2) b))

/-- tools/shrinkelf.c:337-344 `struct region_s`, without the links. -/
structure Region where
  offset : Nat
  filesz : Nat
  deriving DecidableEq

/-- tools/shrinkelf.c:410-418: merge with the next regions. -/
def mergeNext (p : Region) : List Region → List Region
  | [] => [p]
  | q :: rest =>
    if q.offset ≤ u64 (p.offset + p.filesz) then
      mergeNext (if u64 (q.offset + q.filesz) > u64 (p.offset + p.filesz) then { p with filesz := u32 (u64 (sub64 q.offset p.offset + q.filesz)) } else p) rest
    else p :: q :: rest

/-- tools/shrinkelf.c:388-409 when there is a region `p` with a smaller offset; `rest` are the regions behind it. -/
def insertAfter (so sz : Nat) (p : Region) (rest : List Region) : List Region :=
  match rest with
  | q :: rest' =>
    if q.offset < so then p :: insertAfter so sz q rest'
    else if u64 (p.offset + p.filesz) ≥ so then
      mergeNext (if u64 (so + sz) > u64 (p.offset + p.filesz) then { p with filesz := u32 (u64 (sub64 so p.offset + sz)) } else p) (q :: rest')
    else p :: mergeNext ⟨so, sz⟩ (q :: rest')
  | [] =>
    if u64 (p.offset + p.filesz) ≥ so then
      [if u64 (so + sz) > u64 (p.offset + p.filesz) then { p with filesz := u32 (u64 (sub64 so p.offset + sz)) } else p]
    else [p, ⟨so, sz⟩]

/-- tools/shrinkelf.c:388-418: add a part of the file to the list of regions. -/
def insertRegion (rs : List Region) (so sz : Nat) : List Region :=
  match rs with
  | q :: rest => if q.offset < so then insertAfter so sz q rest else mergeNext ⟨so, sz⟩ (q :: rest)
  | [] => [⟨so, sz⟩]

/-- tools/shrinkelf.c:364-382: the parts of the file that matter.  `s_filesz` has 32 bits. -/
def parts (eh : List Byte) (ph : List (List Byte)) : List (Nat × Nat) :=
  (0, 64) :: (field eh 32 8, u32 (field eh 54 2 * field eh 56 2)) ::
    ((ph.filter (fun e => field e 0 4 ≠ 0)).map (fun e => (field e 8 8, u32 (field e 32 8))))

/-- tools/shrinkelf.c:348-420 `compute_regions`, without the warnings about alignment. -/
def computeRegions (eh : List Byte) (ph : List (List Byte)) : List Region :=
  ((parts eh ph).filter (fun p => p.2 ≠ 0)).foldl (fun rs p => insertRegion rs p.1 p.2) []

/-- A region with `disp` and `toffset`. -/
structure Placed where
  offset : Nat
  filesz : Nat
  disp : Nat
  toffset : Nat
  deriving DecidableEq

/-- tools/shrinkelf.c:422-440 `compute_disps`. -/
def computeDisps (curoff : Nat) : List Region → List Placed
  | [] => []
  | p :: rest =>
    let curdisp := u32 (u64 (sub64 p.offset curoff / 4096 * 4096))
    let toffset := sub64 p.offset curdisp
    ⟨p.offset, p.filesz, curdisp, toffset⟩ :: computeDisps (u64 (toffset + p.filesz)) rest

/-- tools/shrinkelf.c:457-459: the region a part of the file lies in. -/
def findRegion (rs : List Placed) (off size : Nat) : Option Placed :=
  rs.find? (fun p => decide (off ≥ p.offset) && decide (u64 (off + size) ≤ u64 (p.offset + p.filesz)))

/-- tools/shrinkelf.c:454-464: the program headers with their new offsets; nothing stands for the internal error. -/
def modifyPhs (rs : List Placed) : List (List Byte) → Option (List (List Byte))
  | [] => some []
  | e :: es =>
    if field e 0 4 = 0 ∨ field e 32 8 = 0 then (modifyPhs rs es).map (e :: ·)
    else match findRegion rs (field e 8 8) (field e 32 8) with
      | none => none
      | some p => (modifyPhs rs es).map (setField e 8 8 (sub64 (field e 8 8) p.disp) :: ·)

/-- tools/shrinkelf.c:441-466 `modify_hdrs`. -/
def modifyHdrs (rs : List Placed) (eh : List Byte) (ph : List (List Byte)) : Option (List Byte × List (List Byte)) :=
  let eh' := setField (setField (setField (setField eh 40 8 0) 58 2 0) 60 2 0) 62 2 0
  match findRegion rs (field eh 32 8) (u32 (field eh 54 2 * field eh 56 2)) with
  | none => none
  | some p => (modifyPhs rs ph).map (fun ph' => (setField eh' 32 8 (sub64 (field eh 32 8) p.disp), ph'))

/-- tools/shrinkelf.c:507-538: put the new headers into a block of the file that starts at `thisoff`. -/
def overlayBlock (eh ph : List Byte) (phoff phsz thisoff : Nat) (buf : List Byte) : List Byte :=
  let thisread := buf.length
  let buf1 := if thisoff < 64 then patch buf 0 ((eh.drop thisoff).take (if 64 - thisoff > thisread then thisread else 64 - thisoff)) else buf
  if thisoff < u64 (phoff + phsz) ∧ phoff < thisoff + thisread then
    let posa := if thisoff < phoff then 0 else thisoff - phoff
    let posb := if thisoff < phoff then phoff - thisoff else 0
    let len := if phsz - posa > thisread - posb then thisread - posb else phsz - posa
    patch buf1 posb ((ph.drop posa).take len)
  else buf1

/-- tools/shrinkelf.c:494-547: copy a region block by block; `inpos` and `outpos` are the positions of the descriptors. -/
def copyLoop (f eh ph : List Byte) (phoff phsz : Nat) (inpos : Nat) (out : List Byte) (outpos thisoff toread : Nat) : Option (List Byte) :=
  if toread > 0 then
    let thisread := if toread > 8192 then 8192 else toread
    let buf := readAt f inpos thisread
    if buf.length < thisread then none
    else
      copyLoop f eh ph phoff phsz (inpos + thisread) (writeAt out outpos (overlayBlock eh ph phoff phsz thisoff buf)) (outpos + thisread)
        (thisoff + thisread) (toread - thisread)
  else some out
termination_by toread
decreasing_by split <;> omega

/-- tools/shrinkelf.c:468-550 `process_file`, from a region on; `inpos` and `outpos` are positions from before. -/
def processFile (f eh ph : List Byte) (phoff phsz : Nat) (out : List Byte) : List Placed → Res (Option (List Byte))
  | [] => pure (some out)
  | p :: rest => do
    let i ← seekSet f 0 p.offset
    match i with
    | none => pure none
    | some inpos => do
      let o ← seekSet out 0 p.toffset
      match o with
      | none => pure none
      | some outpos =>
        match copyLoop f eh ph phoff phsz inpos out outpos p.offset p.filesz with
        | none => pure none
        | some out' => processFile f eh ph phoff phsz out' rest

/-- tools/shrinkelf.c:565-596 (the calls in `main`): the contents of the new file. -/
def shrinkFile (f : List Byte) : Res (Option (List Byte)) := do
  let h ← readHdrs f
  match h with
  | none => pure none
  | some (eh, ph) =>
    let rs := computeDisps 0 (computeRegions eh ph)
    match modifyHdrs rs eh ph with
    | none => pure none
    | some (eh', ph') => processFile f eh' ph'.flatten (field eh 32 8) (u32 (field eh 54 2 * field eh 56 2)) [] rs

/-- ".shrinkelf" -/
def shrinkSuffix : List Byte := [46, 115, 104, 114, 105, 110, 107, 101, 108, 102]

/-- tools/shrinkelf.c:552-606 `main` with the files there are, and the exit status; `free` says whether the name of the temporary file can be created (O_EXCL). A file that can not be opened is noticed at the latest by `dup2`. -/
def shrinkMain (fs : List Byte → Option (List Byte)) (free : Bool) (old : List Byte) : Res ((List Byte → Option (List Byte)) × Int) :=
  match fs old with
  | none => pure (fs, 1)
  | some f => do
    let h ← readHdrs f
    match h with
    | none => pure (fs, 1)
    | some (eh, ph) =>
      let rs := computeDisps 0 (computeRegions eh ph)
      match modifyHdrs rs eh ph with
      | none => pure (fs, 1)
      | some (eh', ph') =>
        if free = true ∧ fs (old ++ shrinkSuffix) = none then do
          let r ← processFile f eh' ph'.flatten (field eh 32 8) (u32 (field eh 54 2 * field eh 56 2)) [] rs
          match r with
          | none => pure (fun n => if n = old ++ shrinkSuffix then none else fs n, 1)
          | some out => pure (fun n => if n = old then some out else if n = old ++ shrinkSuffix then none else fs n, 0)
        else pure (fs, 1)

/-- tools/shrinkelf.c:575-577: the name of the temporary file, in the memory `malloc` gave for it; `lit` is the address of the literal. -/
def tmpName (m : Mem) (tmp old lit : Nat) : Res Mem := do
  let r ← strcpy m tmp old
  let n ← strlen r.1 old
  let q ← strcpy r.1 (tmp + n) lit
  pure q.1

end Minilib

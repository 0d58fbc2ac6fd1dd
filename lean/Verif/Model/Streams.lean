import Verif.Model.Output
import Verif.C.Int
/-
Streams: /repo/src/streams and the inline functions of /repo/include/mini_fstream.h.

A FILE is an `int` (include/globaldefs.h:115-129): the descriptor in the low 22 bits, two flags in bits 22
and 23, the character pushed back by ungetc in the top byte.  There is no buffer.
-/

set_option autoImplicit false

namespace Minilib
open Mem

/-- A descriptor open for reading: what it will still deliver, and the number of calls so far. -/
structure Input where
  data : List Byte
  calls : Nat

/-- How the kernel answers `read`: given the number of the call and the size asked for, a negative number
(an error), or how many bytes to deliver at most (at least one byte is delivered, unless the end is reached
or none was asked for). -/
abbrev RKernel := Nat → Nat → Int

/-- The number of bytes a call of `read` delivers. -/
def readLen (K : RKernel) (s : Input) (n : Nat) : Nat := min (max (K s.calls n).toNat 1) (min n s.data.length)

/-- The system call `read` (include/syscall_stubs.h:104): answer, bytes delivered, new state. -/
def sysRead (K : RKernel) (s : Input) (n : Nat) : Int × List Byte × Input :=
  if K s.calls n < 0 then (K s.calls n, [], ⟨s.data, s.calls + 1⟩)
  else ((readLen K s n : Int), s.data.take (readLen K s n), ⟨s.data.drop (readLen K s n), s.calls + 1⟩)

/-- A stream: the FILE and the descriptor behind it. -/
structure Stream where
  cell : BitVec 32
  input : Input

/-- include/globaldefs.h:125-129. -/
def FEOF_FLAG : BitVec 32 := 0x800000#32
def ERR_FLAG : BitVec 32 := 0x400000#32
def FLAG_MASK : BitVec 32 := 0xc00000#32
def FD_MASK : BitVec 32 := 0x3fffff#32
def UNGETC_MASK : BitVec 32 := 0xff000000#32

/-- include/mini_fstream.h:56-58 `fileno` (of a non-null pointer). -/
def fileno (cell : BitVec 32) : BitVec 32 := cell &&& FD_MASK

/-- src/streams/fgetc.c:5-16 `fgetc`; `ung`: compiled with `mini_ungetc`. -/
def fgetc (K : RKernel) (ung : Bool) (F : Stream) : Int × Stream :=
  if ung = true ∧ F.cell.sshiftRight 24 ≠ 0#32 then
    ((F.cell.sshiftRight 24).toInt, ⟨F.cell &&& ~~~ UNGETC_MASK, F.input⟩)
  else
    match (sysRead K F.input 1).2.1 with
    | b :: _ => ((b.toNat : Int), ⟨F.cell, (sysRead K F.input 1).2.2⟩)
    | [] => (0, ⟨F.cell, (sysRead K F.input 1).2.2⟩)

/-- src/streams/ungetc.c:5-8 `ungetc`.  `c<<24` drops the high bits, as GCC compiles it. -/
def ungetc (c : BitVec 32) (F : Stream) : Int × Stream :=
  (c.toInt, ⟨(F.cell &&& ~~~ UNGETC_MASK) ||| (c <<< 24), F.input⟩)

/-- src/streams/fgets.c:13-20: the loop of `fgets`, and lines 21-23; yields the address of the last
byte written. -/
def fgetsLoop (K : RKernel) (ung : Bool) (m : Mem) (buf : Nat) (size : Int) (F : Stream) :
    Res (Mem × Nat × Stream) := do
  let size ← decInt size
  if size > 0 then do
    let c : Byte := BitVec.ofInt 8 (fgetc K ung F).1
    let m ← m.store (buf + 1) c
    if c = 0#8 then pure (m, buf + 1, (fgetc K ung F).2)
    else fgetsLoop K ung m (buf + 1) (if c = 10#8 then 0 else size) (fgetc K ung F).2
  else do
    let m ← m.store (buf + 1) 0#8
    pure (m, buf + 1, F)
partial_fixpoint

/-- src/streams/fgets.c:4-24 `fgets`. -/
def fgets (K : RKernel) (ung : Bool) (m : Mem) (buf : Nat) (size : Int) (F : Stream) : Res (Mem × Nat × Stream) := do
  let c : Byte := BitVec.ofInt 8 (fgetc K ung F).1
  let m ← m.store buf c
  if c = 0#8 then pure (m, 0, (fgetc K ung F).2)
  else do
    let r ← fgetsLoop K ung m buf (if c = 10#8 then 0 else size) (fgetc K ung F).2
    pure (r.1, buf, r.2.2)

/-- src/streams/fgetsn.c:4-25 `fgetsn`: the same, with the length returned. -/
def fgetsn (K : RKernel) (ung : Bool) (m : Mem) (buf : Nat) (size : Int) (F : Stream) : Res (Mem × Int × Stream) := do
  let c : Byte := BitVec.ofInt 8 (fgetc K ung F).1
  let m ← m.store buf c
  if c = 0#8 then pure (m, 0, (fgetc K ung F).2)
  else do
    let r ← fgetsLoop K ung m buf (if c = 10#8 then 0 else size) (fgetc K ung F).2
    pure (r.1, (r.2.1 : Int) - buf, r.2.2)

/-- src/streams/fgetsp.c:7-22 `fgetsp`. -/
def fgetsp (K : RKernel) (ung : Bool) (m : Mem) (buf : Nat) (size : Int) (F : Stream) : Res (Mem × Nat × Stream) := do
  let size ← decInt size
  if size > 0 then do
    let c : Byte := BitVec.ofInt 8 (fgetc K ung F).1
    let m ← m.store buf c
    if c = 10#8 then do
      let m ← m.store buf 0#8
      pure (m, buf, (fgetc K ung F).2)
    else if c = 0#8 then pure (m, buf, (fgetc K ung F).2)
    else fgetsp K ung m (buf + 1) size (fgetc K ung F).2
  else do
    let m ← m.store buf 0#8
    pure (m, buf, F)
partial_fixpoint

/-- src/streams/fgetud.c:5-14 `fgetud` and src/streams/fgetul.c:5-14 `fgetul`, with `w` = 32 and 64 bits.
`isdigit` (include/ctype.h) of a `char`. -/
def fgetNum (K : RKernel) (ung : Bool) (w : Nat) (ret : BitVec w) (F : Stream) : Res (BitVec w × Stream) :=
  let c : Byte := BitVec.ofInt 8 (fgetc K ung F).1
  if c ≠ 0#8 ∧ 48#8 ≤ c ∧ c ≤ 57#8 then fgetNum K ung w (ret * 10#w + BitVec.ofNat w (c.toNat - 48)) (fgetc K ung F).2
  else .ok (ret, (fgetc K ung F).2)
partial_fixpoint

def fgetud (K : RKernel) (ung : Bool) (F : Stream) : Res (BitVec 32 × Stream) := fgetNum K ung 32 0#32 F
def fgetul (K : RKernel) (ung : Bool) (F : Stream) : Res (BitVec 64 × Stream) := fgetNum K ung 64 0#64 F

/-- include/mini_fstream.h:155-162: the loop of `fread`; `n` items are left, `a` were read. -/
def freadLoop (K : RKernel) (m : Mem) (p size : Nat) (F : Stream) (a : Nat) : Nat → Res (Mem × Nat × Stream)
  | 0 => .ok (m, a, F)
  | n + 1 => do
    let m ← m.storeBytes p (sysRead K F.input size).2.1
    if (sysRead K F.input size).1 ≠ size then
      pure (m, a, ⟨F.cell ||| FEOF_FLAG, (sysRead K F.input size).2.2⟩)
    else freadLoop K m (p + size) size ⟨F.cell, (sysRead K F.input size).2.2⟩ (a + 1) n

/-- include/mini_fstream.h:152-163 `fread` (sizes and counts that are an `int`: the descriptor functions take
an `int`, and `a` is one). -/
def fread (K : RKernel) (m : Mem) (ptr size nmemb : Nat) (F : Stream) : Res (Mem × Nat × Stream) :=
  freadLoop K m ptr size F 0 nmemb

/-- include/mini_fstream.h:98-104: the loop of `fwrite`. -/
def fwriteLoop (K : WKernel) (m : Mem) (p size : Nat) (cell : BitVec 32) (w : Writes) (a : Nat) :
    Nat → Res (Writes × Nat × BitVec 32)
  | 0 => .ok (w, a, cell)
  | n + 1 => do
    let r ← kwrite K m w (fileno cell).toInt p size
    if r.2 ≠ size then pure (r.1, a, cell ||| ERR_FLAG)
    else fwriteLoop K m (p + size) size cell r.1 (a + 1) n

/-- include/mini_fstream.h:95-106 `fwrite`. -/
def fwrite (K : WKernel) (m : Mem) (ptr size nmemb : Nat) (cell : BitVec 32) (w : Writes) : Res (Writes × Nat × BitVec 32) :=
  fwriteLoop K m ptr size cell w 0 nmemb

/-- include/mini_fstream.h:175-186 `feof` and `ferror`. -/
def feof (cell : BitVec 32) : Bool := decide (cell &&& FLAG_MASK ≠ 0#32)
def ferror (cell : BitVec 32) : Bool := decide (cell &&& FLAG_MASK ≠ 0#32)

/-- include/mini_fstream.h:189-196 `clearerr`, `clearerror`. -/
def clearerr (cell : BitVec 32) : BitVec 32 := cell &&& FD_MASK

/-- include/mini_fstream.h:134-139 `fseek`; `r` is the answer of `lseek` (as an `int`). -/
def fseek (cell : BitVec 32) (r : Int) : Int × BitVec 32 := (r, if r > 0 then cell &&& FD_MASK else cell)

/-- include/mini_fstream.h:123-130 `fsetpos`. -/
def fsetpos (cell : BitVec 32) (pos r : Int) : Int × BitVec 32 := (r, if r = pos then cell &&& FD_MASK else cell)

/-! ### The table of streams -/

/-- `mlgl->stream[mini_FOPEN_MAX]` and `mlgl->pstream` (include/minilib_global.h:126,142). -/
structure Table where
  cells : List (BitVec 32)
  pstream : Nat
  deriving DecidableEq

/-- src/intern/startup.c:51-54; the other cells are zero (bss). -/
def Table.init : Table := ⟨[0#32, 1#32, 2#32] ++ List.replicate 13 0#32, 3⟩

/-- `mlgl->stream[i]`: outside of the array undefined. -/
def Table.get (t : Table) (i : Nat) : Res (BitVec 32) :=
  match t.cells[i]? with
  | some c => .ok c
  | none => .ub

/-- src/streams/_fopen.c:50-52: the search for a free cell, with `n = 16 - a`. -/
def findFree (t : Table) (a : Nat) : Nat → Res (Option Nat)
  | 0 => do
    let c ← t.get a
    if 0 ≤ c.toInt then pure none else pure (some a)
  | n + 1 => do
    let c ← t.get a
    if 0 ≤ c.toInt then findFree t (a + 1) n else pure (some a)

/-- src/streams/_fopen.c:47-59: the cell for a new stream. -/
def newCell (t : Table) : Res (Option (Nat × Table)) :=
  if t.pstream ≥ 16 then do
    let r ← findFree t 3 13
    match r with
    | none => pure none
    | some a => pure (some (a, t))
  else .ok (some (t.pstream, ⟨t.cells, t.pstream + 1⟩))

/-- src/streams/_fopen.c:63-72: the answer of `open` (or the descriptor given) is stored; a negative one
makes the call fail. -/
def setCell (t : Table) (a : Nat) (answer : BitVec 32) : Table × Option Nat :=
  (⟨t.cells.set a answer, t.pstream⟩, if answer.toInt < 0 then none else some a)

/-- src/streams/_fopen.c:12-73 with `f = 0`, i.e. `fopen` and `fdopen`, after the mode was read: the answer of `open` to
the name, or the descriptor. -/
def openStream (t : Table) (answer : BitVec 32) : Res (Table × Option Nat) := do
  let r ← newCell t
  match r with
  | none => pure (t, none)
  | some (a, t) => pure (setCell t a answer)

/-- include/mini_fstream.h:71: `for ( pstream--; stream[pstream-1] == -1; pstream-- );` with `pstream` decremented
once. -/
def trimCells (t : Table) : Nat → Res Nat
  | 0 => .ub
  | p + 1 => do
    let c ← t.get p
    if c = 0xffffffff#32 then trimCells t p else pure (p + 1)

/-- include/mini_fstream.h:66-74 `fclose(&stream[i])`; the descriptor is handed to `close`. -/
def fclose (t : Table) (i : Nat) : Res (Table × BitVec 32) := do
  let c ← t.get i
  let t' : Table := ⟨t.cells.set i 0xffffffff#32, t.pstream⟩
  let a ← t'.get (i + 1)
  let b ← t'.get t'.pstream
  if a = b then
    match t'.pstream with
    | 0 => .ub
    | p + 1 => do
      let q ← trimCells t' p
      pure (⟨t'.cells, q⟩, fileno c)
  else pure (t', fileno c)

/-- `open` flags, include/filemodes.h:42-49. -/
def O_RDONLY : BitVec 32 := 0#32
def O_WRONLY : BitVec 32 := 1#32
def O_RDWR : BitVec 32 := 2#32
def O_CREAT : BitVec 32 := 0o100#32
def O_TRUNC : BitVec 32 := 0o1000#32
def O_APPEND : BitVec 32 := 0o2000#32

/-- src/streams/_fopen.c:28-45: the rest of the mode, with `n = 6 - a`. -/
def modeLoop (m : Mem) (mode a : Nat) (imode : BitVec 32) : Nat → Res (BitVec 32)
  | 0 => do
    let _ ← m.load (mode + a)
    pure imode
  | n + 1 => do
    let c ← m.load (mode + a)
    if c = 0#8 then pure imode
    else modeLoop m mode (a + 1) (if c = 43#8 then (imode ||| O_RDWR) &&& ~~~ (O_WRONLY ||| O_RDONLY) else imode) n

/-- src/streams/_fopen.c:15-45: the flags given to `open`; `none`: the mode is refused. -/
def fopenMode (m : Mem) (mode : Nat) : Res (Option (BitVec 32)) := do
  let c ← m.load mode
  if c = 114#8 then do
    let r ← modeLoop m mode 1 O_RDONLY 5
    pure (some r)
  else if c = 119#8 then do
    let r ← modeLoop m mode 1 (O_WRONLY ||| O_TRUNC ||| O_CREAT) 5
    pure (some r)
  else if c = 97#8 then do
    let r ← modeLoop m mode 1 (O_APPEND ||| O_RDWR) 5
    pure (some r)
  else pure none

/-- src/streams/fopen.c:8-10 `fopen`: the kernel's `open` is a function of the flags. -/
def fopen (t : Table) (m : Mem) (openFlags : BitVec 32 → BitVec 32) (mode : Nat) : Res (Table × Option Nat) := do
  let r ← fopenMode m mode
  match r with
  | none => pure (t, none)
  | some f => openStream t (openFlags f)

end Minilib

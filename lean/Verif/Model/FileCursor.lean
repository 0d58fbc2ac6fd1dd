import Verif.Model.Streams
import Verif.Model.Syscall
/-
Streams over a regular file, with positions: /repo/include/mini_fstream.h:108-163 (`ftell`, `fgetpos`, `fsetpos`, `fseek`, `rewind`) together with
`fgetc`, `ungetc`, `fread` and `fwrite` of Model/Streams.lean and `lseek` of Model/Syscall.lean.
-/

set_option autoImplicit false

namespace Minilib
open Mem

/-- A stream open for reading and writing (not appending): memory, the FILE, and the regular file behind it with the offset the kernel
keeps; `errno`. -/
structure FileStream where
  mem : Mem
  cell : BitVec 32
  data : List Byte
  pos : Nat
  errno : Int

/-- The calls of a program on the stream. -/
inductive FCall where
  | getc
  | unget (b : Byte)
  | read (p size n : Nat)
  | write (p size n : Nat)
  | tell
  | seek (off whence : Int)
  | setpos (x : Int)
  | rewind

/-- `read` on a regular file delivers what is asked for, up to the end of the file. -/
def fileReads : RKernel := fun _ n => n

/-- `write` on a regular file takes everything. -/
def fileTakes : WKernel := fun _ _ l => l.length

/-- The stream as the reading functions see it: the data behind the offset. -/
def FileStream.stream (s : FileStream) : Stream := ⟨s.cell, ⟨s.data.drop s.pos, 0⟩⟩

/-- What reading leaves: the offset moved by as many bytes as were delivered. -/
def FileStream.reading (s : FileStream) (F : Stream) : FileStream :=
  { s with cell := F.cell, pos := s.pos + ((s.data.drop s.pos).length - F.input.data.length) }

/-- The kernel puts bytes into the file at the offset: over what is there, behind the end with zeros in between; writing nothing changes
nothing. -/
def filePut (data : List Byte) (pos : Nat) (l : List Byte) : List Byte :=
  if l = [] then data
  else data.take pos ++ List.replicate (pos - data.length) 0#8 ++ l ++ data.drop (pos + l.length)

/-- What writing leaves.  The pieces written by one call of `fwrite` lie one behind the other; they are put into the file at once. -/
def FileStream.writing (s : FileStream) (w : Writes) (cell : BitVec 32) : FileStream :=
  let l := (w.filter (fun x => x.1 = (fileno s.cell).toInt)).flatMap (fun x => x.2)
  { s with cell := cell, data := filePut s.data s.pos l, pos := s.pos + l.length }

/-- `lseek( fileno(f), off, whence )` (include/lseek.h:19). -/
def FileStream.lseek (u : Bool) (hi : BitVec 32) (s : FileStream) (off whence : Int) : Res (FileStream × Int) := do
  let r ← Minilib.lseek u hi ⟨s.pos, s.data.length⟩ off whence s.errno
  pure ({ s with pos := r.1.pos, errno := r.2.2 }, r.2.1)

/-- One call: src/streams/fgetc.c:5-16, src/streams/ungetc.c:5-8, include/mini_fstream.h:152-163 `fread`, 95-106 `fwrite`, 111-113 `ftell`
(and 117-119 `fgetpos`, which stores its answer), 134-139 `fseek`, 123-130 `fsetpos`, 143-145 `rewind`. -/
def FileStream.call (u : Bool) (hi : BitVec 32) (s : FileStream) : FCall → Res (FileStream × Int)
  | .getc => .ok (s.reading (fgetc fileReads true s.stream).2, (fgetc fileReads true s.stream).1)
  | .unget b => .ok (s.reading (ungetc (b.setWidth 32) s.stream).2, (ungetc (b.setWidth 32) s.stream).1)
  | .read p size n => do
    let r ← fread fileReads s.mem p size n s.stream
    pure ({ s.reading r.2.2 with mem := r.1 }, r.2.1)
  | .write p size n => do
    let r ← fwrite fileTakes s.mem p size n s.cell []
    pure (s.writing r.1 r.2.2, r.2.1)
  | .tell => s.lseek u hi 0 1
  | .seek off whence => do
    let r ← s.lseek u hi off whence
    pure ({ r.1 with cell := (fseek r.1.cell r.2).2 }, (fseek r.1.cell r.2).1)
  | .setpos x => do
    let r ← s.lseek u hi x 0
    pure ({ r.1 with cell := (fsetpos r.1.cell x r.2).2 }, (fsetpos r.1.cell x r.2).1)
  | .rewind => do
    let r ← s.lseek u hi 0 0
    pure ({ r.1 with cell := (fseek r.1.cell r.2).2 }, 0)

/-- A program: calls one after the other, and their answers. -/
def FileStream.calls (u : Bool) (hi : BitVec 32) (s : FileStream) : List FCall → Res (FileStream × List Int)
  | [] => .ok (s, [])
  | c :: cs => do
    let r ← s.call u hi c
    let q ← FileStream.calls u hi r.1 cs
    pure (q.1, r.2 :: q.2)

end Minilib

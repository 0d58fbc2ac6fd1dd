import Verif.C.Mem
/-
Directory streams: /repo/src/directories/{opendirp,readdir,rewinddir,seekdir,telldir}.c, built with mini_errno.

The buffer of the stream is a list of bytes (of `mini_dirbufsize` bytes), and a record begins at an offset in it:
8 bytes inode, 8 bytes `d_off`, 2 bytes `d_reclen`, then the rest (include/dirent.h:69-76).

The kernel's directory is a list of records.  How many records a call of `getdents` delivers, and whether it fails, is up to
an arbitrary function of the number of the call; it never delivers more bytes than asked for.
-/

set_option autoImplicit false

namespace Minilib

/-- Two bytes of a list, little endian. -/
def le16 (l : List Byte) (p : Nat) : Option Nat :=
  if p + 2 ≤ l.length then some ((l.getD p 0#8).toNat + 256 * (l.getD (p + 1) 0#8).toNat) else none

/-- Eight bytes of a list as an unsigned number, little endian. -/
def leNat : List Byte → Nat
  | [] => 0
  | b :: l => b.toNat + 256 * leNat l

/-- Eight bytes of a list as a `long`. -/
def le64 (l : List Byte) (p : Nat) : Option Int :=
  if p + 8 ≤ l.length then some (BitVec.ofNat 64 (leNat ((l.drop p).take 8))).toInt else none

/-- The kernel's side of a directory: the records, the position behind the first `i` records as `lseek` knows it, and how
many records a call delivers (none: the call fails with this errno). -/
structure DirK where
  es : List (List Byte)
  ck : Nat → Int
  cut : Nat → Nat ⊕ Nat

/-- The records that fit into `size` bytes. -/
def takeFit : Nat → List (List Byte) → List (List Byte)
  | _, [] => []
  | size, r :: rs => if r.length ≤ size then r :: takeFit (size - r.length) rs else []

/-- `DIR` (include/dirent.h:53-64), with `errno`, and the state of the kernel: its position, and the number of calls. -/
structure DirSt where
  tell : Option Int
  bufPos : Nat
  bufEnd : Nat
  buf : List Byte
  errno : Int
  pos : Nat
  calls : Nat

/-- The system call getdents(2): the state afterwards, and the answer (include/syscall.h:198-206: -1 and errno for an error);
`size` bytes were asked for.  EINVAL is 22. -/
def getdents (K : DirK) (d : DirSt) (size : Nat) : DirSt × Int :=
  match K.cut d.calls with
  | .inl e => ({ d with errno := e, calls := d.calls + 1 }, -1)
  | .inr k =>
    let l := takeFit size ((K.es.drop d.pos).take (k + 1))
    if l = [] ∧ d.pos < K.es.length then ({ d with errno := 22, calls := d.calls + 1 }, -1)
    else ({ d with pos := d.pos + l.length, calls := d.calls + 1, buf := l.flatten ++ d.buf.drop l.flatten.length }, l.flatten.length)

/-- src/directories/readdir.c:28-31: the record at `buf_pos` is returned (its offset here). -/
def readdirNext (d : DirSt) : Res (DirSt × Option Nat) :=
  match le16 d.buf (d.bufPos + 16), le64 d.buf (d.bufPos + 8) with
  | some n, some o => .ok ({ d with bufPos := d.bufPos + n, tell := some o }, some d.bufPos)
  | _, _ => .ub

/-- src/directories/readdir.c:10-32 `readdir`: the offset of the record in the buffer, or none for NULL.
ENOENT is 2 (`len != -ENOENT` holds always, as errors are -1). -/
def readdir (K : DirK) (d : DirSt) : Res (DirSt × Option Nat) :=
  if d.bufPos ≥ d.bufEnd then
    let r := getdents K d d.buf.length
    if r.2 ≤ 0 then
      if r.2 < 0 ∧ r.2 ≠ -2 then .ok ({ r.1 with errno := -r.2 }, none) else .ok (r.1, none)
    else readdirNext { r.1 with bufEnd := r.2.toNat, bufPos := 0 }
  else readdirNext d

/-- The system call lseek(2) with SEEK_SET on a directory: the position is the one `off` stands for, -EINVAL if there is
none.  The stub returns the answer as an `int` (include/syscall.h:198-206). -/
def lseekDir (K : DirK) (d : DirSt) (off : Int) : DirSt × Int :=
  match (List.range (K.es.length + 1)).find? (fun i => K.ck i = off) with
  | none => ({ d with errno := 22 }, -1)
  | some i =>
    let r := (BitVec.ofInt 32 off).toInt
    if r < 0 then ({ d with pos := i, errno := -r }, -1) else ({ d with pos := i }, r)

/-- src/directories/opendirp.c:6-15 `opendirp`, when `open` worked: `tell` and the buffer keep what was in the memory before. -/
def opendirp (tell : Option Int) (buf : List Byte) (errno : Int) : DirSt :=
  { tell := tell, bufPos := 0, bufEnd := 0, buf := buf, errno := errno, pos := 0, calls := 0 }

/-- src/directories/rewinddir.c:2-8 `rewinddir`. -/
def rewinddir (K : DirK) (d : DirSt) : DirSt :=
  { (lseekDir K d 0).1 with bufPos := 0, bufEnd := 0, tell := some 0 }

/-- src/directories/seekdir.c:2-7 `seekdir`. -/
def seekdir (K : DirK) (d : DirSt) (off : Int) : DirSt :=
  { (lseekDir K d off).1 with tell := some (lseekDir K d off).2, bufPos := 0, bufEnd := 0 }

/-- src/directories/telldir.c:2-4 `telldir`; an uninitialised value is undefined. -/
def telldir (d : DirSt) : Res Int :=
  match d.tell with
  | none => .ub
  | some o => .ok o

end Minilib

import Verif.Model.Dir
import Verif.Model.Malloc
import Verif.Model.Scandir
import Verif.Model.Fdtable
/-
Directory streams in the memory of the program, as many as wanted: /repo/src/directories/{opendir,opendirp,closedir,readdir,
rewinddir,dirfd}.c, with the streams allocated by `malloc` (the default, include/dirent.h:26-38) and buffers of
`mini_dirbufsize` = 2048 bytes (include/dirent.h:20-22); built with mini_errno.

A stream is the struct of include/dirent.h:53-64: 8 bytes `tell`, then the words `fd`, `buf_pos`, `buf_end` and `align`, and
the buffer at offset 24; 2072 bytes.  The kernel has a table of descriptors, with the position of each directory; a new
descriptor is the lowest unused one.  What calls deliver, and whether they fail, is up to arbitrary functions of the number
of the call.  The message of a failing `malloc` is left out.
-/

set_option autoImplicit false

namespace Minilib
open Mem

/-- A descriptor in use: of a directory, with its position, or of something else. -/
inductive FdEnt where
  | other
  | dir (name : List Byte) (pos : Nat)
deriving DecidableEq

/-- The kernel: the directories by their names (records, and the numbers of positions), how many records a call delivers
(as in `DirK`), and whether a call of `open` fails. -/
structure DirsK where
  dir : List Byte → Option (List (List Byte) × (Nat → Int))
  cut : Nat → Nat ⊕ Nat
  refuse : Nat → Option Nat

/-- The kernel's side of one directory. -/
def DirsK.kern (K : DirsK) (e : List (List Byte) × (Nat → Int)) : DirK := ⟨e.1, e.2, K.cut⟩

/-- The state of program and kernel: heap, table of descriptors, `errno`, and the numbers of calls of `getdents` and `open`. -/
structure DirsSt where
  heap : Heap
  fds : List (Option FdEnt)
  errno : Int
  calls : Nat
  opens : Nat

/-- The memory replaced. -/
def DirsSt.setMem (s : DirsSt) (m : Mem) : DirsSt := { s with heap := ⟨m, s.heap.mbufsize⟩ }

/-- The system call open(2) with O_RDONLY|O_DIRECTORY|O_CLOEXEC; `name` is the string the kernel reads.  ENOENT is 2, EMFILE 24. -/
def openDir (K : DirsK) (s : DirsSt) (name : List Byte) : DirsSt × Int :=
  match K.refuse s.opens with
  | some e => ({ s with errno := e, opens := s.opens + 1 }, -1)
  | none =>
    match K.dir name with
    | none => ({ s with errno := 2, opens := s.opens + 1 }, -1)
    | some _ =>
      if fdLowest s.fds < 1024 then
        ({ s with fds := fdPut s.fds (fdLowest s.fds) (some (.dir name 0)), opens := s.opens + 1 }, fdLowest s.fds)
      else ({ s with errno := 24, opens := s.opens + 1 }, -1)

/-- The system call close(2).  EBADF is 9. -/
def closeFd (s : DirsSt) (fd : Int) : DirsSt × Int :=
  match fdGet s.fds fd with
  | some _ => ({ s with fds := fdPut s.fds fd.toNat none }, 0)
  | none => ({ s with errno := 9 }, -1)

/-- The system call getdents(2) on a descriptor: the bytes are stored at `buf`.  ENOTDIR is 20. -/
def getdentsFd (K : DirsK) (s : DirsSt) (fd : Int) (buf size : Nat) : Res (DirsSt × Int) :=
  match fdGet s.fds fd with
  | some (.dir name pos) =>
    match K.dir name with
    | some e => do
      let r := getdents (K.kern e) { tell := none, bufPos := 0, bufEnd := 0, buf := [], errno := s.errno, pos := pos, calls := s.calls } size
      let m ← s.heap.mem.storeBytes buf r.1.buf
      pure ({ s with
        heap := ⟨m, s.heap.mbufsize⟩, fds := fdPut s.fds fd.toNat (some (.dir name r.1.pos)), errno := r.1.errno, calls := r.1.calls }, r.2)
    | none => .ok ({ s with errno := 2, calls := s.calls + 1 }, -1)
  | some .other => .ok ({ s with errno := 20, calls := s.calls + 1 }, -1)
  | none => .ok ({ s with errno := 9, calls := s.calls + 1 }, -1)

/-- The system call lseek(2) with SEEK_SET on a descriptor. -/
def lseekFd (K : DirsK) (s : DirsSt) (fd : Int) (off : Int) : DirsSt × Int :=
  match fdGet s.fds fd with
  | some (.dir name pos) =>
    match K.dir name with
    | some e =>
      let r := lseekDir (K.kern e) { tell := none, bufPos := 0, bufEnd := 0, buf := [], errno := s.errno, pos := pos, calls := s.calls } off
      ({ s with fds := fdPut s.fds fd.toNat (some (.dir name r.1.pos)), errno := r.1.errno }, r.2)
    | none => ({ s with errno := 22 }, -1)
  | some .other => (s, off)
  | none => ({ s with errno := 9 }, -1)

/-- src/directories/opendirp.c:5-15 `opendirp`: the state and whether the stream was opened. -/
def opendirpMem (K : DirsK) (s : DirsSt) (name : List Byte) (p : Nat) : Res (DirsSt × Nat) :=
  let r := openDir K s name
  if r.2 < 0 then .ok (r.1, 0)
  else do
    let m ← r.1.heap.mem.storeW (p + 8 : Nat) (BitVec.ofInt 32 r.2)
    let m ← m.storeW (p + 16 : Nat) 0#32
    let m ← m.storeW (p + 12 : Nat) 0#32
    pure (r.1.setMem m, p)

/-- src/directories/opendir.c:10-24 `opendir`. -/
def opendir (A : Arena) (K : DirsK) (s : DirsSt) (name : List Byte) : Res (DirsSt × Nat) := do
  let r ← malloc A s.heap 2072
  if r.2 = 0 then pure ({ s with heap := r.1 }, 0)
  else
    let q ← opendirpMem K { s with heap := r.1 } name r.2
    if q.2 = 0 then
      let h ← free A q.1.heap r.2
      pure ({ q.1 with heap := h }, 0)
    else pure (q.1, r.2)

/-- src/directories/closedir.c:6-10 `closedir`. -/
def closedir (A : Arena) (s : DirsSt) (p : Nat) : Res (DirsSt × Int) := do
  let fd ← s.heap.mem.loadW (p + 8 : Nat)
  let r := closeFd s fd.toInt
  let h ← free A r.1.heap p
  pure ({ r.1 with heap := h }, r.2)

/-- src/directories/dirfd.c:2-4 `dirfd`. -/
def dirfd (s : DirsSt) (p : Nat) : Res Int := do
  let fd ← s.heap.mem.loadW (p + 8 : Nat)
  pure fd.toInt

/-- src/directories/readdir.c:28-31: the record at `buf_pos`. -/
def readdirNextMem (s : DirsSt) (p : Nat) : Res (DirsSt × Nat) := do
  let bp ← s.heap.mem.loadW (p + 12 : Nat)
  if bp.toInt < 0 then .ub
  else
    let de := p + 24 + bp.toNat
    let n ← reclen s.heap.mem de
    let e ← ckInt (bp.toInt + n)
    let m ← s.heap.mem.storeW (p + 12 : Nat) (BitVec.ofInt 32 e)
    let o ← m.loadBytes (de + 8) 8
    let m ← m.storeBytes p o
    pure (s.setMem m, de)

/-- src/directories/readdir.c:10-32 `readdir`. -/
def readdirMem (K : DirsK) (s : DirsSt) (p : Nat) : Res (DirsSt × Nat) := do
  let bp ← s.heap.mem.loadW (p + 12 : Nat)
  let be ← s.heap.mem.loadW (p + 16 : Nat)
  if be.toInt ≤ bp.toInt then
    let fd ← s.heap.mem.loadW (p + 8 : Nat)
    let r ← getdentsFd K s fd.toInt (p + 24) 2048
    if r.2 ≤ 0 then
      if r.2 < 0 ∧ r.2 ≠ -2 then pure ({ r.1 with errno := -r.2 }, 0) else pure (r.1, 0)
    else
      let m ← r.1.heap.mem.storeW (p + 16 : Nat) (BitVec.ofInt 32 r.2)
      let m ← m.storeW (p + 12 : Nat) 0#32
      readdirNextMem (r.1.setMem m) p
  else readdirNextMem s p

/-- src/directories/rewinddir.c:2-8 `rewinddir`. -/
def rewinddirMem (K : DirsK) (s : DirsSt) (p : Nat) : Res DirsSt := do
  let fd ← s.heap.mem.loadW (p + 8 : Nat)
  let s := (lseekFd K s fd.toInt 0).1
  let m ← s.heap.mem.storeW (p + 16 : Nat) 0#32
  let m ← m.storeW (p + 12 : Nat) 0#32
  let m ← m.storeBytes p (List.replicate 8 0#8)
  pure (s.setMem m)

end Minilib

import Verif.Model.Streams
import Verif.Model.Fdtable
/-
The table of streams together with the descriptors of the process: /repo/src/streams/{_fopen,fopen,fdopen,freopen}.c and
`fclose` of /repo/include/mini_fstream.h.

The kernel keeps for each descriptor what was opened; a new descriptor is the lowest unused one below 1024.  Names are the
strings the kernel reads.  Whether a call of `open` fails is an arbitrary function of its number, the name and the flags.
-/

set_option autoImplicit false

namespace Minilib
open Mem

/-- An open file: the name and the flags given to `open`. -/
structure FileEnt where
  name : List Byte
  flags : BitVec 32
deriving DecidableEq

/-- The kernel: whether a call of `open` fails, given the number of the call. -/
abbrev FilesK := Nat → List Byte → BitVec 32 → Option Nat

/-- The streams, the descriptors, `errno`, and the number of calls of `open`. -/
structure FilesSt where
  table : Table
  fds : List (Option FileEnt)
  errno : Int
  opens : Nat

/-- The system call open(2); it answers -1 and sets `errno` when it fails (include/syscall.h with mini_errno).  EMFILE is 24. -/
def sysOpen (K : FilesK) (s : FilesSt) (name : List Byte) (flags : BitVec 32) : FilesSt × BitVec 32 :=
  match K s.opens name flags with
  | some e => ({ s with errno := e, opens := s.opens + 1 }, 0xffffffff#32)
  | none =>
    if fdLowest s.fds < 1024 then
      ({ s with fds := fdPut s.fds (fdLowest s.fds) (some ⟨name, flags⟩), opens := s.opens + 1 }, BitVec.ofNat 32 (fdLowest s.fds))
    else ({ s with errno := 24, opens := s.opens + 1 }, 0xffffffff#32)

/-- The system call close(2).  EBADF is 9. -/
def sysClose (s : FilesSt) (fd : BitVec 32) : FilesSt × Int :=
  match fdGet s.fds fd.toInt with
  | some _ => ({ s with fds := fdPut s.fds fd.toNat none }, 0)
  | none => ({ s with errno := 9 }, -1)

/-- src/streams/_fopen.c:63-72: the name is opened, or the descriptor taken, for the cell `a`; a negative answer makes the call fail. -/
def fillCell (K : FilesK) (s : FilesSt) (fd : BitVec 32) (name : Option (List Byte)) (flags : BitVec 32) (a : Nat) : FilesSt × Option Nat :=
  match name with
  | some name =>
    let r := sysOpen K s name flags
    let c := setCell r.1.table a r.2
    ({ r.1 with table := c.1 }, c.2)
  | none =>
    let c := setCell s.table a fd
    ({ s with table := c.1 }, c.2)

/-- src/streams/_fopen.c:12-73 `_fopen`; `f` is the index of the stream, if given; a name of `none` is NULL. -/
def fopenGen (K : FilesK) (s : FilesSt) (m : Mem) (fd : BitVec 32) (name : Option (List Byte)) (mode : Nat) (f : Option Nat) :
    Res (FilesSt × Option Nat) := do
  let r ← fopenMode m mode
  match r with
  | none => pure (s, none)
  | some flags =>
    match f with
    | none =>
      let r ← newCell s.table
      match r with
      | none => pure (s, none)
      | some (a, t) => pure (fillCell K { s with table := t } fd name flags a)
    | some i =>
      let c ← s.table.get i
      let r := sysClose s (fileno c)
      pure (fillCell K r.1 fd name flags i)

/-- src/streams/fopen.c:8-10 `fopen`. -/
def fopenF (K : FilesK) (s : FilesSt) (m : Mem) (name : List Byte) (mode : Nat) : Res (FilesSt × Option Nat) :=
  fopenGen K s m 0#32 (some name) mode none

/-- src/streams/fdopen.c:6-8 `fdopen`. -/
def fdopen (K : FilesK) (s : FilesSt) (m : Mem) (fd : BitVec 32) (mode : Nat) : Res (FilesSt × Option Nat) :=
  fopenGen K s m fd none mode none

/-- src/streams/freopen.c:6-8 `freopen` of the stream with index `i`. -/
def freopen (K : FilesK) (s : FilesSt) (m : Mem) (name : Option (List Byte)) (mode i : Nat) : Res (FilesSt × Option Nat) :=
  fopenGen K s m 0#32 name mode (some i)

/-- include/mini_fstream.h:66-74 `fclose` of the stream with index `i`. -/
def fcloseF (s : FilesSt) (i : Nat) : Res (FilesSt × Int) := do
  let r ← fclose s.table i
  pure (sysClose { s with table := r.1 } r.2)

end Minilib

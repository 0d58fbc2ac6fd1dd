import Verif.Model.Process
/-
Messages with an end: the macros of /repo/src/process/die.c and /repo/src/process/error.h.

`e` is the buffer of errno_str, `hasErrno` tells whether /bin/errno can be executed, as in `exit_errno`.  The handlers run by `exit` are the subject of
C47 and left out here.
-/

set_option autoImplicit false

namespace Minilib
open Mem

/-- src/process/die.c:11 `die(errnum,msg)`: the literal `msg "\n"` of `ewritesl` is at `msg`, `n` is the length of the message. -/
def die (K : WKernel) (m : Mem) (w : Writes) (e : Nat) (hasErrno : Bool) (errnum : Int) (msg n : Nat) : Res ErrnoExit := do
  let r ← writesl K m w 2 msg n
  exit_errno K m r.1 e hasErrno errnum

/-- How the macros with a format end: the process ends or becomes another program, it ends in the format (a signal), or it goes on. -/
inductive Died where
  | gone (x : ErrnoExit)
  | inFormat
  | on (h : Heap) (w : Writes)

/-- src/process/die.c:20 `dief(errnum,fmt,...)`. -/
def dief (K : WKernel) (junk : Nat → Byte) (handled : Bool) (A : Arena) (h : Heap) (w : Writes) (e : Nat) (hasErrno : Bool) (errnum : Int)
    (fmt : Nat) (args : List PfArg) : Res Died := do
  let r ← fprintf K junk handled A h w 2 fmt args
  match r.2.2 with
  | .ended => pure .inFormat
  | .ret _ =>
    let x ← exit_errno K r.1.mem r.2.1 e hasErrno errnum
    pure (.gone x)

/-- src/process/die.c:29 `dies(errnum,...)`; `nl` is the address of the literal "\n". -/
def dies (K : WKernel) (m : Mem) (w : Writes) (e : Nat) (hasErrno : Bool) (errnum : Int) (nl : Nat) (args : List Nat) : Res ErrnoExit := do
  let r ← printsl K m w 2 nl args
  exit_errno K m r.1 e hasErrno errnum

/-- src/process/die.c:34-50 `_die`, with errno (`none` without the switch mini_errno). -/
def die_ (K : WKernel) (m : Mem) (w : Writes) (e : Nat) (hasErrno : Bool) (errno : Option Int) : Res ErrnoExit :=
  let errnum := match errno with | some n => n | none => 0
  if errnum ≠ 0 then exit_errno K m w e hasErrno errnum
  else pure (.exited m w 255)

/-- src/process/die.c:59 `die_if(when,errnum,msg)`: none when the process goes on. -/
def die_if (K : WKernel) (m : Mem) (w : Writes) (e : Nat) (hasErrno : Bool) (when : Bool) (errnum : Int) (msg n : Nat) : Res (Option ErrnoExit) :=
  if when then do
    let x ← die K m w e hasErrno errnum msg n
    pure (some x)
  else pure none

/-- src/process/die.c:80 `dies_if(when,errnum,...)`. -/
def dies_if (K : WKernel) (m : Mem) (w : Writes) (e : Nat) (hasErrno : Bool) (when : Bool) (errnum : Int) (nl : Nat) (args : List Nat) :
    Res (Option ErrnoExit) :=
  if when then do
    let x ← dies K m w e hasErrno errnum nl args
    pure (some x)
  else pure none

/-- src/process/die.c:69 `dief_if(when,errnum,fmt,...)`. -/
def dief_if (K : WKernel) (junk : Nat → Byte) (handled : Bool) (A : Arena) (h : Heap) (w : Writes) (e : Nat) (hasErrno : Bool) (when : Bool)
    (errnum : Int) (fmt : Nat) (args : List PfArg) : Res Died :=
  if when then dief K junk handled A h w e hasErrno errnum fmt args else pure (.on h w)

/-- src/process/error.h:13,20: `fprints(stderr,":",strerror(errnum))`; `colon` is the address of the literal ":", `errstr` the buffer of strerror. -/
def errReason (K : WKernel) (m : Mem) (w : Writes) (errstr colon : Nat) (errnum : Int) : Res (Mem × Writes) := do
  let s ← strerror m errstr errnum
  let r ← prints K s.1 w 2 [colon, s.2]
  pure (s.1, r.1)

/-- src/process/error.h:13 `error(status,errnum,fmt...)`. -/
def errorMsg (K : WKernel) (junk : Nat → Byte) (handled : Bool) (A : Arena) (h : Heap) (w : Writes) (errstr colon : Nat) (status errnum : Int)
    (fmt : Nat) (args : List PfArg) : Res Died := do
  let r ← fprintf K junk handled A h w 2 fmt args
  match r.2.2 with
  | .ended => pure .inFormat
  | .ret _ =>
    let s ← (if errnum ≠ 0 then errReason K r.1.mem r.2.1 errstr colon errnum else pure (r.1.mem, r.2.1))
    if status ≠ 0 then pure (.gone (.exited s.1 s.2 (status % 256).toNat))
    else pure (.on ⟨s.1, r.1.mbufsize⟩ s.2)

/-- src/process/error.h:20 `err(status,fmt...)`. -/
def errMsg (K : WKernel) (junk : Nat → Byte) (handled : Bool) (A : Arena) (h : Heap) (w : Writes) (errstr colon : Nat) (status errno : Int)
    (fmt : Nat) (args : List PfArg) : Res Died := do
  let r ← fprintf K junk handled A h w 2 fmt args
  match r.2.2 with
  | .ended => pure .inFormat
  | .ret _ =>
    let s ← errReason K r.1.mem r.2.1 errstr colon errno
    pure (.gone (.exited s.1 s.2 (status % 256).toNat))

/-- src/process/error.h:27 `errx(status,fmt...)`. -/
def errxMsg (K : WKernel) (junk : Nat → Byte) (handled : Bool) (A : Arena) (h : Heap) (w : Writes) (status : Int) (fmt : Nat) (args : List PfArg) :
    Res Died := do
  let r ← fprintf K junk handled A h w 2 fmt args
  match r.2.2 with
  | .ended => pure .inFormat
  | .ret _ => pure (.gone (.exited r.1.mem r.2.1 (status % 256).toNat))

/-- src/process/error.h:33 `warn(fmt...)`. -/
def warnMsg (K : WKernel) (junk : Nat → Byte) (handled : Bool) (A : Arena) (h : Heap) (w : Writes) (fmt : Nat) (args : List PfArg) : Res Died := do
  let r ← fprintf K junk handled A h w 2 fmt args
  match r.2.2 with
  | .ended => pure .inFormat
  | .ret _ => pure (.on r.1 r.2.1)

end Minilib

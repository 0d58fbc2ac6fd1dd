import Verif.Model.Bits
import Verif.Model.Prints
/-
Models of /repo/src/process: sigaction.c (sigaction, raise), signal.c, abort.c, exit_errno.c; /repo/src/output/perror.c, /repo/src/file/open.c
(the answer).

What signal and perror write to standard error is a list of bytes; exit_errno writes to an arbitrary kernel (Model/Output).
-/

set_option autoImplicit false

namespace Minilib
open Mem

/-- `struct sigaction`; handlers are addresses, SIG_DFL is 0, SIG_IGN is 1, SIG_ERR is -1. -/
structure SigAct where
  handler : Int
  flags : Nat
  mask : Nat
  restorer : Nat
  deriving DecidableEq

/-- The actions of the process, by signal. -/
abbrev SigTable := Int → SigAct

/-- The system call rt_sigaction(2) with a new action: EINVAL (22) for a number that is no signal, for SIGKILL (9) and SIGSTOP (19). -/
def rtSigaction (t : SigTable) (sig : Int) (a : SigAct) : SigTable × Int :=
  if sig < 1 ∨ 64 < sig ∨ sig = 9 ∨ sig = 19 then (t, -22)
  else (fun s => if s = sig then a else t s, 0)

/-- The answer of the wrapper: -1 with errno, the negative number without (include/syscall.h:198-225). -/
def wrapNeg (useErrno : Bool) (r : Int) : Int := if useErrno ∧ r < 0 then -1 else r

/-- src/process/sigaction.c:117-134 `sigaction`: `act` is none for NULL, which is read; `rst` is the address of `_sigrestore`; the third component
is what is stored in `*oact`. SA_RESTORER is 0x04000000. -/
def sigaction (useErrno : Bool) (rst : Nat) (t : SigTable) (sig : Int) (act : Option SigAct) : Res (SigTable × Int × Option SigAct) :=
  match act with
  | none => .ub
  | some a =>
    let r := rtSigaction t sig { handler := a.handler, flags := a.flags ||| 0x04000000, mask := a.mask, restorer := rst }
    .ok (r.1, wrapNeg useErrno r.2, if r.2 = 0 then some (t sig) else none)

/-- include/prints.h:87 `ewrites` of a literal: `sizeof` counts its NUL. -/
def ewritesText (s : String) : List Byte := textBytes s ++ [0#8]

/-- src/process/signal.c:5-13 `signal`: the table, the answer, and what is written to standard error. SA_RESTART is 0x10000000. -/
def signal (useErrno : Bool) (rst : Nat) (t : SigTable) (sig func : Int) : Res (SigTable × Int × List Byte) := do
  let r ← sigaction useErrno rst t sig (some ⟨func, 0x10000000, 0, 0⟩)
  if r.2.1 < 0 then pure (r.1, -1, ewritesText "SIGNAL - ERR\n")
  else pure (r.1, (match r.2.2 with | some o => o.handler | none => 0), [])

/-- How a process ends. -/
inductive ProcEnd where
  | killed (sig : Int)
  | exited (code : Int)
  | inHandler
  deriving DecidableEq

/-- The process as signals see it: actions, blocked signals. -/
structure SigState where
  table : SigTable
  blocked : Int → Bool

/-- src/process/sigaction.c:145-147 `raise` of a signal whose default ends the process; `run` is what a handler does: it ends the process or
returns, having changed actions and blocked signals. -/
def raise (run : Int → SigState → Option SigState) (s : SigState) (sig : Int) : ProcEnd ⊕ SigState :=
  if s.blocked sig then .inr s
  else if (s.table sig).handler = 0 then .inl (.killed sig)
  else if (s.table sig).handler = 1 then .inr s
  else match run (s.table sig).handler s with
    | none => .inl .inHandler
    | some s' => .inr s'

/-- src/process/abort.c:3-11 `abort`. -/
def abort (useErrno : Bool) (rst : Nat) (run : Int → SigState → Option SigState) (s : SigState) : Res ProcEnd :=
  match raise run s 6 with
  | .inl e => .ok e
  | .inr s => do
    let r ← signal useErrno rst s.table 6 0
    match raise run { s with table := r.1 } 6 with
    | .inl e => .ok e
    | .inr _ => .ok (.exited 125)

/-- What becomes of a process that calls exit_errno: another program with its arguments, or the end, with what was written and the status the
parent sees (the lower 8 bits of the argument of exit). -/
inductive ErrnoExit where
  | exec (mem : Mem) (w : Writes) (path : List Byte) (arg : Nat)
  | exited (mem : Mem) (w : Writes) (status : Nat)

/-- src/process/exit_errno.c:17-32 `exit_errno`; `e` is the buffer of errno_str, `hasErrno` tells whether /bin/errno can be executed. -/
def exit_errno (K : WKernel) (m : Mem) (w : Writes) (e : Nat) (hasErrno : Bool) (errnum : Int) : Res ErrnoExit := do
  let errnum ← (if errnum < 0 then ckInt (-errnum) else pure errnum)
  let r ← errno_str m e errnum
  if hasErrno then pure (.exec r.1 w (textBytes "/bin/errno") r.2)
  else do
    let w := (sysWrite K w 2 (ewritesText "Error, errno: ")).1
    let q ← kwrite K r.1 w 2 r.2 3
    let w := (sysWrite K q.1 2 (ewritesText "\n")).1
    pure (.exited r.1 w (errnum % 256).toNat)

/-- src/output/perror.c:4-9 `perror`: what is written; `msg` is none for NULL, `text` is what strerror answers for errno. -/
def perror (msg : Option (List Byte)) (text : List Byte) : List Byte :=
  (match msg with | none => [] | some s => s) ++ text

/-- src/file/open.c:18-30 `open`: the answer and errno when the kernel answers `r`; `useErrno` with errno. -/
def openAnswer (useErrno : Bool) (r errno : Int) : Int × Int := (r, if useErrno ∧ r < 0 then -r else errno)

end Minilib

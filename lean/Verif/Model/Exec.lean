import Verif.Model.Str
import Verif.Model.Bits
/-
Running programs: /repo/src/exec/{where,execvp,execl,system,vexec}.c.

`access` is an arbitrary function of the text of the path; `execve` is not modelled: the functions here answer which path
and which argument vector it is called with.
-/

set_option autoImplicit false

namespace Minilib
open Mem

/-- The text of a string, as the kernel reads it (strncpy_from_user). -/
def cstr (m : Mem) (p : Nat) : Res (List Byte) := do
  let b ← m.load p
  if b = 0#8 then pure []
  else do
    let l ← cstr m (p + 1)
    pure (b :: l)
partial_fixpoint

/-- src/exec/where.c:12-30: the loop over the characters of PATH; line 18, the copy of the name, is the loop of `strcpy`. -/
def whereLoop (access : List Byte → Bool) (file buf : Nat) (m : Mem) (path p : Nat) : Res (Mem × Int) := do
  let b ← m.load path
  let m ← m.store p b
  let c ← m.load (path + 1)
  if c = 58#8 ∨ c = 0#8 then do
    let m ← m.store (p + 1) 47#8
    let r ← stpcpyLoop m (p + 2) file
    let s ← cstr r.1 buf
    if access s = true then pure (r.1, 1)
    else do
      let c ← r.1.load (path + 1)
      if c = 0#8 then pure (r.1, 0) else whereLoop access file buf r.1 (path + 2) buf
  else whereLoop access file buf m (path + 1) (p + 1)
partial_fixpoint

/-- src/exec/where.c:5-31 `where`; `path` is what `getenv("PATH")` gave, or the address of the default path (lines 6-9). -/
def «where» (access : List Byte → Bool) (m : Mem) (file buf path : Nat) : Res (Mem × Int) :=
  whereLoop access file buf m path buf

/-- src/exec/execvp.c:12-21 `execvpe`: the memory and the address of the path that `execve` gets, or none for the answer -1.
`buf` is the local array of PATH_MAX bytes. -/
def execvpe (access : List Byte → Bool) (m : Mem) (file buf path : Nat) : Res (Mem × Option Nat) := do
  let b ← m.load file
  if b = 0#8 ∨ b = 46#8 ∨ b = 47#8 then pure (m, some file)
  else do
    let r ← «where» access m file buf path
    pure (r.1, if r.2 ≠ 0 then some buf else none)

/-- src/exec/execl.c:10-12: `argc` is the number of arguments up to the NULL, and one; reading behind the given arguments is undefined. -/
def execlCount : List Nat → Res Nat
  | [] => .ub
  | a :: l => if a = 0 then .ok 1 else do
    let n ← execlCount l
    pure (n + 1)

/-- src/exec/execl.c:20-22: the arguments go into the vector. -/
def execlFill : Nat → List Nat → Res (List Nat)
  | 0, _ => .ok [0]
  | _ + 1, [] => .ub
  | n + 1, a :: l => do
    let r ← execlFill n l
    pure (a :: r)

/-- src/exec/execl.c:6-28 `execl`: the argument vector, `args` are the arguments behind `arg0`. -/
def execl (arg0 : Nat) (args : List Nat) : Res (List Nat) := do
  let argc ← execlCount args
  let l ← execlFill (argc - 1) args
  pure (arg0 :: l)

/-- src/exec/system.c:16-19: the loop around `waitpid`.  The kernel's answer to call `n` is none for an error, or the pid and
the status; `ws` is none as long as it is uninitialised. -/
def systemWait (ans : Nat → Option (Nat × Nat)) (n : Nat) (ws : Option Nat) : Res Nat :=
  match (ans n).elim ws (fun a => some a.2) with
  | none => .ub
  | some w => if WIFEXITED w then .ok (WEXITSTATUS w) else systemWait ans (n + 1) (some w)
partial_fixpoint

/-- src/exec/vexec.c:18-20 and src/exec/vexec_q.c:18-20: the loop around `waitpid`; the status is looked at only when the
answer is the pid of the child. -/
def vexecWait (ans : Nat → Option (Nat × Nat)) (pid n : Nat) : Res Nat :=
  match ans n with
  | none => vexecWait ans pid (n + 1)
  | some a =>
    if a.1 = pid then
      if WIFEXITED a.2 ∨ WIFSIGNALED a.2 then .ok (WEXITSTATUS a.2) else vexecWait ans pid (n + 1)
    else vexecWait ans pid (n + 1)
partial_fixpoint

end Minilib

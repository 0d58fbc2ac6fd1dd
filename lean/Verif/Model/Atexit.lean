import Verif.C.Mem
/-
Handlers at exit: /repo/src/process/atexit.c and the end of /repo/src/intern/startup.c.

The table `mlgl->atexitp` has ATEXIT_MAX cells (`n` here; 8 by default, globaldefs.h:182-190, or the value of the switch
mini_atexit).  Addresses of functions are natural numbers, 0 is NULL.  The member behind the table is `appdata`, a pointer
(minilib_global.h:134-135, and 88-91).
-/

set_option autoImplicit false

namespace Minilib

/-- src/process/atexit.c:9-13: the first free cell, or none when `ENOMEM` is returned. -/
def atexitFree (n : Nat) (t : List Nat) (p : Nat) : Res (Option Nat) :=
  match t[p]? with
  | none => .ub
  | some f =>
    if f ≠ 0 then
      if p + 1 ≥ n then .ok none else atexitFree n t (p + 1)
    else .ok (some p)
partial_fixpoint

/-- src/process/atexit.c:7-19 `atexit`; ENOMEM is 12. -/
def atexit (n : Nat) (t : List Nat) (func : Nat) : Res (List Nat × Int) := do
  let r ← atexitFree n t 0
  match r with
  | none => pure (t, 12)
  | some p =>
    let t := t.set p func
    pure (if (p : Int) < (n : Int) - 1 then t.set (p + 1) 0 else t, 0)

/-- src/intern/startup.c:100: `for ( p=0; atexitp[p]!=0 && p<=ATEXIT_MAX; p++ );` over the cells from the table on. -/
def exitCount (n : Nat) (cells : List Nat) (p : Nat) : Res Nat :=
  match cells[p]? with
  | none => .ub
  | some f => if f ≠ 0 ∧ p ≤ n then exitCount n cells (p + 1) else .ok p
partial_fixpoint

/-- src/intern/startup.c:101-104: the calls, from the last to the first. -/
def exitCalls (cells : List Nat) : Nat → Res (List Nat)
  | 0 => .ok []
  | p + 1 =>
    match cells[p]? with
    | none => .ub
    | some f => do
      let l ← exitCalls cells p
      pure (f :: l)

/-- src/intern/startup.c:98-105: the functions called at exit, in order.  The cells behind the table (`appdata`, and the
table of streams) are `behind`; reading `appdata` through the table is what the compiled code does, although the C standard
leaves it undefined. -/
def exitRun (n : Nat) (t behind : List Nat) : Res (List Nat) := do
  match (t ++ behind)[0]? with
  | none => .ub
  | some f =>
    if f ≠ 0 then do
      let p ← exitCount n (t ++ behind) 0
      exitCalls (t ++ behind) p
    else pure []

end Minilib

import Verif.Model.Malloc
import Verif.Model.Brk
import Verif.Model.Env
import Verif.Model.Atexit
import Verif.Model.Streams
import Verif.Model.Userdb
import Verif.Model.Math
/-
The start of a program: /repo/asm/start-linux-x64.c, /repo/asm/start-linux-x32.c, /repo/src/intern/startup.c and /repo/src/intern/start_c.c.

Addresses are natural numbers, 0 is NULL.  The stack the kernel hands over is the list of its words, from the stack pointer upwards.
-/

set_option autoImplicit false

namespace Minilib
open Mem

/-- include/minilib_global.h:121-161: the members of `minilib_globals` which the modelled functions use.  The arena `mbuf` is memory
(`Arena`). -/
structure Globals where
  errno : Int
  srand : BitVec 32
  pstream : Nat
  mbufsize : Int
  environ : Nat
  brk : Nat
  mallocStart : Nat
  atexitp : List Nat
  appdata : Nat
  stream : List (BitVec 32)
  passwdfile : Userdb
  pwent : Passwd
  groupfile : Userdb
  groupent : Group

/-- The switches `_startup` looks at: mini_buf with its value, mini_errno, mini_environ, mini_atexit, mini_pwent, and mini_groupfile.
The last one is defined nowhere in the library (the members of the group functions depend on mini_grent). -/
structure Switches where
  buf : Option Nat
  errno : Bool
  environ : Bool
  atexit : Bool
  pwent : Bool
  groupfile : Bool

/-- src/intern/startup.c:43-55: the arena and the streams. -/
def startBuf (c : Switches) (g : Globals) : Globals :=
  match c.buf with
  | none => g
  | some n => { g with
      mbufsize := (n : Int) - 4
      stream := ((g.stream.set 0 0#32).set 1 1#32).set 2 2#32
      pstream := 3 }

/-- src/intern/startup.c:59-83: the other members. -/
def startRest (c : Switches) (envp : Nat) (g : Globals) : Globals :=
  let g := if c.errno then { g with errno := 0 } else g
  let g := if c.environ then { g with environ := envp } else g
  let g := if c.atexit then { g with atexitp := g.atexitp.set 0 0 } else g
  let g := if c.pwent then { g with passwdfile := { g.passwdfile with file := 0 }, pwent := { g.pwent with name := 0 } } else g
  if c.groupfile then { g with groupfile := { g.groupfile with file := 0 }, groupent := { g.groupent with name := 0 } } else g

/-- src/intern/startup.c:10-87 `_startup` up to the call of `main`.  `g` is what the globals contain before: zero in the section .bss,
anything when they are on the stack (mini_globals_on_stack). -/
def startup (c : Switches) (g : Globals) (envp : Nat) : Globals :=
  { startRest c envp (startBuf c g) with brk := 0, mallocStart := 0 }

/-- asm/start-linux-x64.c:7-10: `popq %rdi; movq %rsp,%rsi; leaq 8(%rsi,%rdi,8),%rdx` with the stack pointer `sp`: argc, argv, envp. -/
def startArgs (sp : Nat) : List Nat → Res (Nat × Nat × Nat)
  | [] => .ub
  | argc :: _ => .ok (argc, sp + 8, sp + 8 + argc * 8 + 8)

/-- asm/start-linux-x64.c:7-15: the stack pointer at the call of `_startup` (or `main`), after `popq %rdi`. -/
def startSp (sp : Nat) : Nat := sp + 8

/-- asm/start-linux-x32.c:8-18: `pop %eax; leal 12(%esp,%eax,4),%ebx; pop %eax; mov %esp,%ecx`, and `main` is called with `%eax`, `%ecx`, `%ebx`:
argc, argv, envp.  Words of four bytes.  The stack is the one at the first instruction: `_start` is a C function, and the compiler
may have pushed `%ebp` before it. -/
def startArgs32 (sp : Nat) : List Nat → Res (Nat × Nat × Nat)
  | argc :: w :: _ => .ok (w, sp + 8, sp + 4 + 12 + argc * 4)
  | _ => .ub

/-- The words of the stack from address `a` on, with words of `k` bytes. -/
def wordsFrom (k sp : Nat) (stack : List Nat) (a : Nat) : List Nat := stack.drop ((a - sp) / k)

/-- The words of the stack from address `a` on. -/
def stackFrom (sp : Nat) (stack : List Nat) (a : Nat) : List Nat := stack.drop ((a - sp) / 8)

/-- src/intern/start_c.c:18: `while ( *envp++ != 0 );`; the words behind the NULL (32 bit). -/
def skipEnv : List Nat → Res (List Nat)
  | [] => .ub
  | p :: ps => if p ≠ 0 then skipEnv ps else .ok ps

/-- src/intern/start_c.c:21-27: the search for type 32 among the pairs of 32 bit words. -/
def auxSearch : List Nat → Res Nat
  | t :: v :: r => if t = 32 then .ok v else auxSearch r
  | _ => .ub

/-- src/intern/start_c.c:15-28 `__start_c`: the value for `__mini_vsys`. -/
def startC (envp : List Nat) : Res Nat := do
  let aux ← skipEnv envp
  auxSearch aux

end Minilib

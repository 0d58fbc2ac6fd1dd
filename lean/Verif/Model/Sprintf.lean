import Verif.Model.Printf
import Verif.Model.Termios
import Verif.Model.Env
/-
Model of /repo/src/output/{sprintf,vsprintf}.c and /repo/src/termios/{pty,term_width}.c.
-/

set_option autoImplicit false

namespace Minilib

/-- src/output/sprintf.c:8: a macro, `snprintf` with the size `mini_buf` of the configuration. -/
def sprintf (miniBuf : Nat) (junk : Nat → Byte) (m : Mem) (str fmt : Nat) (args : List PfArg) : Res (Mem × Int × Bool) :=
  vsnprintf junk m str miniBuf fmt args

/-- src/output/vsprintf.c:14-20: the arguments are those behind the format, not a `va_list`. -/
def vsprintf (junk : Nat → Byte) (m : Mem) (buf fmt : Nat) (args : List PfArg) : Res (Mem × Int × Bool) :=
  vsnprintf junk m buf 4096 fmt args

/-- Linux, TIOCGPTN: the number of the pseudo terminal, or a negative error number. -/
def kPtn (K : TtyTab) (fd : Int) : Except Int Nat :=
  match K fd with
  | none => .error (-25)
  | some t => t.ptn

/-- src/termios/pty.c:22-31; `fmt` is the address of the literal, `len` a (signed) `long`.  The last component: SIGSEGV has been raised. -/
def ptsname_r (miniBuf : Nat) (junk : Nat → Byte) (m : Mem) (K : TtyTab) (fmt : Nat) (fd : Int) (buf : Nat) (len : Int) : Res (Mem × Int × Bool) :=
  let len := if buf = 0 then 0 else len
  match kPtn K fd with
  | .error e => .ok (m, -e, false)
  | .ok n => do
    let r ← sprintf miniBuf junk m buf fmt [.int (BitVec.ofNat 32 n)]
    pure (r.1, if r.2.1 ≥ len then 34 else 0, r.2.2)

/-- src/termios/pty.c:35-45; `sbuf` is the address of the static buffer of 22 bytes.  Memory, answer, errno (0 for: not set), and whether SIGSEGV has been
raised. -/
def ptsname (miniBuf : Nat) (junk : Nat → Byte) (m : Mem) (K : TtyTab) (fmt sbuf : Nat) (fd : Int) : Res (Mem × Nat × Int × Bool) := do
  let r ← ptsname_r miniBuf junk m K fmt fd sbuf 22
  if r.2.1 ≠ 0 then pure (r.1, 0, r.2.1, r.2.2) else pure (r.1, sbuf, 0, r.2.2)

/-- src/termios/pty.c:50-56; `mode` the answer of fstat (none for an error), `chmod` the kernel's answer.  Memory, answer, and the chmod done: path and
mode. -/
def grantpt (miniBuf : Nat) (junk : Nat → Byte) (m : Mem) (K : TtyTab) (mode : Int → Option (BitVec 32)) (chmod : Nat → BitVec 32 → Int) (fmt sbuf : Nat)
    (fd : Int) : Res (Mem × Int × Option (Nat × BitVec 32)) :=
  match mode fd with
  | none => .ok (m, -1, none)
  | some md => do
    let r ← ptsname miniBuf junk m K fmt sbuf fd
    let w := md ||| 0o400#32 ||| 0o200#32 ||| 0o020#32
    pure (r.1, if chmod r.2.1 w < 0 then -1 else 0, some (r.2.1, w))

/-- src/termios/term_width.c:11-14: the loop over the digits. -/
def widthLoop (m : Mem) (p : Nat) (ret : Int) : Res Int := do
  let c ← m.load p
  if c ≠ 0#8 then do
    let r ← ckInt (ret * 10)
    let r ← ckInt (r + c.toInt)
    let r ← ckInt (r - 48)
    widthLoop m (p + 1) r
  else pure ret
partial_fixpoint

/-- src/termios/term_width.c:7-16; `name` is the address of the literal "COLUMNS". -/
def term_width (m : Mem) (name : Nat) (env : List Nat) : Res Int := do
  let p ← getenv m name env
  if p = 0 then pure 80 else widthLoop m p 0

end Minilib

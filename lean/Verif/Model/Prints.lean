import Verif.Model.Output
/-
The macros of /repo/include/prints.h, and /repo/include/fputc.h.
-/

set_option autoImplicit false

namespace Minilib

/-- include/fputc.h:9-12 `fputc` (and `putchar`, `putc`, lines 15 and 18); `fd` is `fileno(F)`.  The first byte of the `int`, little endian. -/
def fputc (K : WKernel) (w : Writes) (c : BitVec 32) (fd : Int) : Writes × Int := ((sysWrite K w fd [c.setWidth 8]).1, c.toInt)

/-- include/prints.h:53,57 `print` (`fd` 1) and `eprint` (`fd` 2). -/
def printStr (K : WKernel) (m : Mem) (w : Writes) (fd : Int) (str : Nat) : Res (Writes × Int) := do
  let n ← strlen m str
  kwrite K m w fd str n

/-- include/prints.h:62,66 `printl` and `eprintl`. -/
def printNl (K : WKernel) (w : Writes) (fd : Int) : Writes × Int := sysWrite K w fd [10#8]

/-- include/prints.h:72,76 `puts` and `eputs`: a sum of two calls, which the compiler may evaluate in either order (`nlFirst`). -/
def puts (nlFirst : Bool) (K : WKernel) (m : Mem) (w : Writes) (fd : Int) (msg : Nat) : Res (Writes × Int) :=
  if nlFirst then do
    let q := printNl K w fd
    let r ← printStr K m q.1 fd msg
    let s ← ckInt (r.2 + q.2)
    pure (r.1, s)
  else do
    let r ← printStr K m w fd msg
    let q := printNl K r.1 fd
    let s ← ckInt (r.2 + q.2)
    pure (q.1, s)

/-- include/prints.h:10-34 `prints`, `eprints`, `fprints`: `dprints` with the null pointer appended.  (The macro appends the `int` 0, which is taken
for a null pointer here.) -/
def prints (K : WKernel) (m : Mem) (w : Writes) (fd : Int) : List Nat → Res (Writes × Int)
  | [] => .ub
  | msg :: args => dprints K m w fd msg (args ++ [0])

/-- include/prints.h:42,48 `printsl` and `eprintsl`; `nl` is the address of the literal "\n". -/
def printsl (K : WKernel) (m : Mem) (w : Writes) (fd : Int) (nl : Nat) (args : List Nat) : Res (Writes × Int) := prints K m w fd (args ++ [nl])

/-- include/prints.h:83,87,107 `writes`, `ewrites` and `fwrites`, of a literal at `str` with `n` bytes before its NUL: `sizeof` counts the NUL. -/
def writes (K : WKernel) (m : Mem) (w : Writes) (fd : Int) (str n : Nat) : Res (Writes × Int) := kwrite K m w fd str (n + 1)

/-- include/prints.h:93,100,114 `writesl`, `ewritesl` and `fwritesl`: the literal at `str` is the text of `n` bytes with a newline and a NUL behind. -/
def writesl (K : WKernel) (m : Mem) (w : Writes) (fd : Int) (str n : Nat) : Res (Writes × Int) := kwrite K m w fd str (n + 1 + 1)

end Minilib

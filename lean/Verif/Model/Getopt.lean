import Verif.Model.Str
import Verif.Model.Bits
/-
Models of /repo/contrib/getopt/getopt.h.

`argv` is a list of pointers, the last of which is NULL; reading behind it is undefined.  The strings are in byte memory.
The messages on stderr are left out, and with them `opterr`.
-/

set_option autoImplicit false

namespace Minilib
open Mem

/-- contrib/getopt/getopt.h:18-21,26: the variables. -/
structure Getopt where
  optind : Nat
  optpos : Nat
  optopt : Int
  optarg : Nat

/-- `argv[i]`. -/
def argvAt (argv : List Nat) (i : Nat) : Res Nat :=
  match argv[i]? with
  | some p => .ok p
  | none => .ub

/-- contrib/getopt/getopt.h:46-66: an option that takes an argument. -/
def getoptArg (m : Mem) (argv : List Nat) (optstring arg : Nat) (s : Getopt) : Res (Getopt × Int) := do
  let n ← m.load (arg + s.optpos + 1)
  if n ≠ 0#8 then
    pure ({ s with optarg := arg + s.optpos + 1, optind := s.optind + 1, optpos := 1 }, s.optopt)
  else do
    let w ← argvAt argv (s.optind + 1)
    if w ≠ 0 then pure ({ s with optarg := w, optind := s.optind + 2, optpos := 1 }, s.optopt)
    else do
      let q ← m.load optstring
      if q = 58#8 then pure (s, 58) else pure (s, 63)

/-- contrib/getopt/getopt.h:67-72: an option without argument. -/
def getoptFlag (m : Mem) (arg : Nat) (s : Getopt) : Res (Getopt × Int) := do
  let n ← m.load (arg + (s.optpos + 1))
  if n = 0#8 then pure ({ s with optind := s.optind + 1, optpos := 1 }, s.optopt)
  else pure ({ s with optpos := s.optpos + 1 }, s.optopt)

/-- contrib/getopt/getopt.h:40-72: the option at `arg[optpos]`. -/
def getoptAt (m : Mem) (argv : List Nat) (optstring arg : Nat) (s : Getopt) : Res (Getopt × Int) := do
  let c ← m.load (arg + s.optpos)
  let opt ← strchr m optstring c.toInt
  if opt = 0 then pure ({ s with optopt := c.toInt }, 63)
  else do
    let k ← m.load (opt + 1)
    if k = 58#8 then getoptArg m argv optstring arg { s with optopt := c.toInt }
    else getoptFlag m arg { s with optopt := c.toInt }

/-- contrib/getopt/getopt.h:37: `!arg || arg[0] != '-' || !isalnum(arg[1])`. -/
def getoptStop (m : Mem) (arg : Nat) : Res Bool :=
  if arg = 0 then pure true else do
    let a ← m.load arg
    if a ≠ 45#8 then pure true else do
      let b ← m.load (arg + 1)
      pure (!isalnum (b.signExtend 32))

/-- contrib/getopt/getopt.h:34: `arg && strcmp(arg, "--") == 0`; `dd` is the address of the literal. -/
def getoptDashes (m : Mem) (dd arg : Nat) : Res Bool :=
  if arg = 0 then pure false else do
    let c ← strcmp m arg dd
    pure (c = 0)

/-- contrib/getopt/getopt.h:28-31: the reset. -/
def getoptReset (s : Getopt) : Getopt := if s.optind = 0 then { s with optind := 1, optpos := 1 } else s

/-- contrib/getopt/getopt.h:23-74 `getopt`. -/
def getopt (m : Mem) (dd : Nat) (argv : List Nat) (optstring : Nat) (s0 : Getopt) : Res (Getopt × Int) := do
  let s := getoptReset s0
  let arg ← argvAt argv s.optind
  let d ← getoptDashes m dd arg
  if d = true then pure ({ s with optind := s.optind + 1 }, -1)
  else do
    let e ← getoptStop m arg
    if e = true then pure (s, -1) else getoptAt m argv optstring arg s

end Minilib

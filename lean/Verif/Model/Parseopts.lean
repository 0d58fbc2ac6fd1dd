import Verif.Model.Getopt
/-
Models of /repo/macros/getoptm.h (PARSEOPTS_short, GETOPT_short, SETOPT_short).

The argument `options` of the macro is an expression like `(a+h+l)`, given here as the list of the numbers of its letters (a is 0); the action
`unrecognized` is one that goes on: the option characters it sees are recorded.
-/

set_option autoImplicit false

namespace Minilib
open Mem

/-- macros/getoptm.h:7-9: the constants of the enumeration. -/
def optBit (l : Nat) : BitVec 32 := 1#32 <<< l

/-- The value of `options` where it is used, macros/getoptm.h:32: inside the loop of line 29, whose variable `b` hides the constant `b`.
(Sums of `int`s, which do not overflow for words of less than 2 GB.) -/
def optExpr (letters : List Nat) (b : Nat) : BitVec 32 :=
  (letters.map fun l => if l = 1 then BitVec.ofNat 32 b else optBit l).foldr (· + ·) 0

/-- macros/getoptm.h:29-35: the loop over the characters of a word; a shift of an `int` by a negative number or by 32 or more is undefined. -/
def poChars (m : Mem) (letters : List Nat) (p : Nat) (b : Nat) (opts : BitVec 32) (bad : List Byte) : Res (BitVec 32 × List Byte) := do
  let c ← m.load (p + b)
  if c = 0#8 then pure (opts, bad)
  else if c.toInt - 97 < 0 ∨ 32 ≤ c.toInt - 97 then .ub
  else
    let ti := optBit (c.toInt - 97).toNat
    poChars m letters p (b + 1) (opts ||| ti) (if optExpr letters b &&& ti = 0#32 then bad ++ [c] else bad)
partial_fixpoint

/-- macros/getoptm.h:26-37: the loop over the words. -/
def poWords (m : Mem) (argv : List Nat) (letters : List Nat) (ap argp : Nat) (opts : BitVec 32) (bad : List Byte) : Res (Nat × BitVec 32 × List Byte) := do
  let p ← argvAt argv ap
  if p = 0 then pure (argp, opts, bad)
  else do
    let c ← m.load p
    if c = 45#8 then do
      let r ← poChars m letters p 1 opts bad
      poWords m argv letters (ap + 1) (ap + 1) r.1 r.2
    else poWords m argv letters (ap + 1) argp opts bad
partial_fixpoint

/-- macros/getoptm.h:23-39 `PARSEOPTS_short`: the result, the bits and the characters given to `unrecognized`. -/
def parseopts (m : Mem) (argv : List Nat) (letters : List Nat) (opts : BitVec 32) : Res (Nat × BitVec 32 × List Byte) :=
  poWords m argv letters 1 1 opts []

/-- macros/getoptm.h:44-47 `GETOPT_short` of a letter, as a truth value. -/
def getoptBit (opts : BitVec 32) (l : Nat) : Bool := opts &&& optBit l ≠ 0#32

/-- macros/getoptm.h:52-55 `SETOPT_short` of a letter. -/
def setoptBit (opts : BitVec 32) (l : Nat) : BitVec 32 := opts ||| optBit l

end Minilib

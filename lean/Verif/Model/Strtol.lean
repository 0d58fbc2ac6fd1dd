import Verif.Model.Conv
/-
Models of /repo/src/string/strtol.c, strtoimax.c, strtoll.c.

The three functions have the same text except for the type of the accumulator.  `*endp = c`, done in
every round when `endp` is not NULL, is modelled by returning the last `c` as second result: the
model assumes that the pointer object `*endp` does not overlap the string.
-/

set_option autoImplicit false

namespace Minilib
open Mem

/-- include/ctype.h:10 `_isspace`. -/
def isspaceB (b : Byte) : Bool :=
  b = 32#8 ∨ b = 9#8 ∨ b = 10#8 ∨ b = 12#8 ∨ b = 13#8 ∨ b = 11#8

/-- src/string/strtol.c:6-8: `while(isspace(*c)) c++;`. -/
def strtolSkip (m : Mem) (c : Nat) : Res Nat := do
  let b ← m.load c
  if isspaceB b then strtolSkip m (c + 1) else pure c
partial_fixpoint

/-- src/string/strtol.c:40-46: the digit value `add`, -1 if the character is no letter or digit. -/
def strtolAdd (b : Byte) : Int :=
  let add : Int := -1
  let add := if b.toInt ≥ 48 ∧ b.toInt ≤ 57 then b.toInt - 48 else add
  let add := if b.toInt ≥ 65 ∧ b.toInt ≤ 90 then b.toInt - 65 + 10 else add
  if b.toInt ≥ 97 ∧ b.toInt ≤ 122 then b.toInt - 97 + 10 else add

/-- src/string/strtol.c:36-60: the digit loop.  `ck` is the overflow check of the accumulator's type,
`lo`/`hi` its limits.  Returns the value and the last `c`. -/
def strtolLoop (m : Mem) (ck : Int → Res Int) (lo hi : Int) (sign : Bool) (base : Int) (c : Nat)
    (ret : Int) : Res (Int × Nat) := do
  let b ← m.load c
  let add := strtolAdd b
  if add > base ∨ add = -1 then
    if sign then
      let r ← ck (-ret)
      pure (r, c)
    else pure (ret, c)
  else
    let ret ← ck (ret * base)
    let ret ← ck (ret + add)
    if ret < 0 then pure (if sign then lo else hi, c)
    else strtolLoop m ck lo hi sign base (c + 1) ret
partial_fixpoint

/-- src/string/strtol.c:20-32: deduction of the base; returns the base and the new `c`. -/
def strtolBase (m : Mem) (c : Nat) (base : Int) : Res (Int × Nat) := do
  if base = 0 then
    let b ← m.load c
    if b = 48#8 then
      let x ← m.load (c + 1)
      if x = 120#8 then pure (16, c + 2) else pure (8, c + 1)
    else pure (10, c)
  else pure (base, c)

/-- src/string/strtol.c:4-71 and strtoimax.c:4-71, common text.  The test `if ( !c )` at line 10
comes after `*c` was read, so it only sees non-NULL pointers. -/
def strtolGen (m : Mem) (ck : Int → Res Int) (lo hi : Int) (c : Nat) (base : Int) :
    Res (Int × Nat) := do
  let c ← strtolSkip m c
  let b ← m.load c
  if b = 45#8 then
    let r ← strtolBase m (c + 1) base
    strtolLoop m ck lo hi true r.1 r.2 0
  else
    let r ← strtolBase m c base
    strtolLoop m ck lo hi false r.1 r.2 0

/-- src/string/strtol.c:4 `strtol`. -/
def strtol (m : Mem) (c : Nat) (base : Int) : Res (Int × Nat) :=
  strtolGen m ckLong (-9223372036854775808) 9223372036854775807 c base

/-- src/string/strtoimax.c:4 `strtoimax` (the accumulator is an `int`). -/
def strtoimax (m : Mem) (c : Nat) (base : Int) : Res (Int × Nat) :=
  strtolGen m ckInt INT_MIN INT_MAX c base

/-- src/string/strtoll.c:8 `strtoll`. -/
def strtoll (m : Mem) (c : Nat) (base : Int) : Res (Int × Nat) := strtol m c base

end Minilib

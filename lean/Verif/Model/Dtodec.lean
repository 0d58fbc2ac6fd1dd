import Verif.Model.Conv
import Verif.C.Double
/-
Model of /repo/src/conversions/dtodec.c.

A double is its number of units of 2^-1074 (Verif/C/Double.lean).  Infinities and NaN are left out: the conversion to `int` is
undefined for them.  -0.0 is 0: all comparisons and results are the same.
-/

set_option autoImplicit false

namespace Minilib
open Mem

/-- The conversion of a double to `int`: towards zero; undefined when the result is no `int`. -/
def dblToInt (d : Int) : Res Int := ckInt (d.tdiv dblOne)

/-- The conversion of a double to `unsigned int`. -/
def dblToUint (d : Int) : Res Nat :=
  if 0 ≤ d.tdiv dblOne ∧ d.tdiv dblOne < 4294967296 then .ok (d.tdiv dblOne).toNat else .ub

/-- src/conversions/dtodec.c:12-16: the billionths `(d-i)*1000000000+0.1`, or those of `-d+i`; every operation rounds. -/
def dtodecFrac (d i : Int) : Int :=
  rnd (rnd (rnd (if 0 ≤ d then d - i * dblOne else -d + i * dblOne) * 1000000000) + dblTenth)

/-- src/conversions/dtodec.c:10-32 `dtodec`: the memory and the answer. -/
def dtodec (m : Mem) (d : Int) (buf : Nat) (precision : Int) : Res (Mem × Int) := do
  let i ← dblToInt d
  let i2 ← dblToUint (dtodecFrac d i)
  let r ← (if d ≤ -dblOne ∨ 0 < d then itodec m i buf 0 0#8 0#8
    else do
      let m ← m.store buf 45#8
      let m ← m.store (buf + 1) 48#8
      pure (m, 1))
  let m ← r.1.store (buf + r.2.toNat + 1) 46#8
  let q ← uitodec m i2 (buf + r.2.toNat + 2) 9 0#8 0#8
  let n ← ckInt (r.2 + q.2)
  let n ← ckInt (n + 2)
  let n ← ckInt (n - 9)
  let n ← ckInt (n + precision)
  pure (q.1, n)

end Minilib

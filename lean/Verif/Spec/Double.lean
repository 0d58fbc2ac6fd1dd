import Verif.C.Mem
/-
A double as a number: what is in front of the dot, and the decimals.
-/

set_option autoImplicit false

namespace Spec

/-- The units of 1.0. -/
def one : Nat := 2 ^ 1074

/-- The whole part of the absolute value. -/
def dblWhole (d : Int) : Nat := d.natAbs / one

/-- The units of the part behind the dot. -/
def dblPart (d : Int) : Nat := d.natAbs % one

/-- The decimals from number `j` on, `k` of them. -/
def decimals (d : Int) : Nat → Nat → List Byte
  | 0, _ => []
  | k + 1, j => BitVec.ofNat 8 (48 + dblPart d * 10 ^ (j + 1) / one % 10) :: decimals d k (j + 1)

end Spec

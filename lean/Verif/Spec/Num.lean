import Verif.C.Mem
/-
Specification of numerals: positional notation, padding and digit grouping, independent of the
conversion functions of the library.
-/

set_option autoImplicit false

namespace Spec

/-- The digits of `n` in base `b`, most significant first, without leading zeros (`[0]` for 0). -/
def digitsOf (b n : Nat) : List Nat :=
  if h : n < b ∨ b < 2 then [n]
  else digitsOf b (n / b) ++ [n % b]
termination_by n
decreasing_by
  have : ¬ n < b := fun h' => h (Or.inl h')
  exact Nat.div_lt_self (by omega) (by omega)

/-- The number denoted by a list of digits. -/
def valueOf (b : Nat) (l : List Nat) : Nat := l.foldl (fun a d => a * b + d) 0

/-- The character of a digit: 0-9, then a-z (or A-Z). -/
def digitChar (caps : Bool) (d : Nat) : Byte :=
  if d < 10 then BitVec.ofNat 8 (48 + d)
  else if caps then BitVec.ofNat 8 (65 + (d - 10)) else BitVec.ofNat 8 (97 + (d - 10))

/-- The text of `n` in base `b`. -/
def numeral (b : Nat) (n : Nat) : List Byte := (digitsOf b n).map (digitChar false)

/-- The text of `n` in base `b` with capital letters. -/
def numeralCaps (b : Nat) (n : Nat) : List Byte := (digitsOf b n).map (digitChar true)

/-- `l` extended on the left with the character `c` to at least `w` characters. -/
def padTo (w : Int) (c : Byte) (l : List Byte) : List Byte :=
  List.replicate (w.toNat - l.length) c ++ l

/-- `l` with the separator `c` (none if `c` is NUL) in front of every position which has a multiple
of three characters from itself to the end. -/
def sep (c : Byte) : List Byte → List Byte
  | [] => []
  | x :: l => (if c ≠ 0#8 ∧ (l.length + 1) % 3 = 0 then [c] else []) ++ x :: sep c l

/-- `l` grouped by threes from the right: as `sep`, but never starting with the separator. -/
def group (c : Byte) : List Byte → List Byte
  | [] => []
  | x :: l => x :: sep c l

/-- The text of a signed decimal number. -/
def decimal (n : Int) : List Byte :=
  if n < 0 then 45#8 :: numeral 10 n.natAbs else numeral 10 n.natAbs

end Spec

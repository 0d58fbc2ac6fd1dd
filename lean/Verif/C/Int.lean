import Verif.C.Res
/-
C integer helpers.  `int` values are modelled by mathematical integers in the range of the type;
the operations below make signed overflow undefined behaviour where the code could reach it.
-/

-- `2^31 - 1`, the largest `int`.
notation "INT_MAX" => (2147483647 : Int)

-- `-2^31`, the smallest `int`.
notation "INT_MIN" => (-2147483648 : Int)

/-- `a++` on a non-negative `int` counter; signed overflow is undefined. -/
def incInt (a : Nat) : Res Nat := if a < 2147483647 then .ok (a + 1) else .ub

/-- `--n` on an `int`; signed overflow is undefined. -/
def decInt (n : Int) : Res Int := if n = INT_MIN then .ub else .ok (n - 1)

theorem incInt_ok {a : Nat} (h : a < 2147483647) : incInt a = .ok (a + 1) := by simp [incInt, h]
theorem decInt_ok {n : Int} (h : n ≠ INT_MIN) : decInt n = .ok (n - 1) := by simp [decInt, h]

/-- Conversion of any integer to `int` (reduction modulo 2^32 into the signed range). -/
def toInt32 (x : Int) : Int := Int.bmod x 4294967296

/-- The result of an `int` operation: undefined when it does not fit into an `int`. -/
def ckInt (x : Int) : Res Int := if INT_MIN ≤ x ∧ x ≤ INT_MAX then .ok x else .ub

theorem ckInt_ok {x : Int} (h1 : INT_MIN ≤ x) (h2 : x ≤ INT_MAX) : ckInt x = .ok x := by
  simp [ckInt, h1, h2]

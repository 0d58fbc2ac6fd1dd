import Verif.Model.Env
/-
The environment as a list of variables.
-/

set_option autoImplicit false

namespace Spec
open Minilib

/-- A variable: name and value. -/
abbrev Var := List Byte × List Byte

/-- The text of a variable: `name=value`. -/
def Var.text (x : Var) : List Byte := x.1 ++ 61#8 :: x.2

/-- The array `arr` of pointers holds exactly the variables `vs`, in this order, and a NULL behind them. -/
def EnvView (m : Mem) : List Nat → List Var → Prop
  | arr, [] => arr.head? = some 0
  | [], _ :: _ => False
  | p :: arr, x :: vs => p ≠ 0 ∧ m.IsStr p (x.1 ++ 61#8 :: x.2) ∧ 61#8 ∉ x.1 ∧ EnvView m arr vs

/-- The value of a variable: that of its first entry. -/
def lookupVar (n : List Byte) : List Var → Option (List Byte)
  | [] => none
  | x :: vs => if x.1 = n then some x.2 else lookupVar n vs

/-- Setting a variable: its first entry is replaced, or a new one is added at the end. -/
def setVar (n v : List Byte) : List Var → List Var
  | [] => [(n, v)]
  | x :: vs => if x.1 = n then (n, v) :: vs else x :: setVar n v vs

/-- Removing the first entry of a variable. -/
def removeVar (n : List Byte) : List Var → List Var
  | [] => []
  | x :: vs => if x.1 = n then vs else x :: removeVar n vs

end Spec

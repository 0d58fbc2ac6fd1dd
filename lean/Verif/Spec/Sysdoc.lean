import Verif.Spec.Deftag
/-
C123: definitions of system calls, and how they are to be shown.
-/

set_option autoImplicit false

namespace Spec
open Minilib

/-- `DEF_syscall(name, count, params` with blanks around the count; the parameters end with the bracket and whatever is in the line behind it. -/
structure SysDef where
  name : Line
  before : Nat
  count : Line
  behind : Nat
  params : Line

def SysDef.text (d : SysDef) : Line :=
  [68, 69, 70, 95, 115, 121, 115, 99, 97, 108, 108] ++ 40#8 :: (d.name ++ 44#8 :: (List.replicate d.before 32#8 ++ (d.count ++ (List.replicate d.behind 32#8 ++ 44#8 :: d.params))))

/-- The call with its parameters. -/
def SysDef.shown (d : SysDef) : Line := d.name ++ 40#8 :: d.params

def SysDef.Fair (d : SysDef) : Prop := NameBytes d.name ∧ 44#8 ∉ d.name ∧ ∀ b ∈ d.count, 48 ≤ b.toNat ∧ b.toNat ≤ 57

/-- No parameter is empty or a number: between two commas there is something else. -/
def NoBare (l : Line) : Prop := ∀ a b c : Line, l = a ++ 44#8 :: (b ++ 44#8 :: c) →
  ∃ x ∈ b, ¬ (x = 32#8 ∨ x = 9#8 ∨ x = 10#8 ∨ x = 12#8 ∨ x = 13#8 ∨ x = 11#8 ∨ 48 ≤ x.toNat ∧ x.toNat ≤ 57)

end Spec

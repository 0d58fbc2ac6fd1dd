import Verif.Model.Stripundefs
/-
C119: prototypes.
-/

set_option autoImplicit false

namespace Spec

open Minilib

/-- A prototype: type, stars, name and parameters. -/
structure Proto where
  type : Line
  stars : Nat
  name : Line
  params : Line

/-- A prototype as text, up to the closing bracket. -/
def Proto.text (p : Proto) : Line := p.type ++ 32#8 :: (List.replicate p.stars 42#8 ++ (p.name ++ 40#8 :: (p.params ++ [41#8])))

/-- A name: no blanks, stars or brackets. -/
def NameBytes (n : Line) : Prop := ∀ b ∈ n, b ≠ 32#8 ∧ b ≠ 9#8 ∧ b ≠ 10#8 ∧ b ≠ 12#8 ∧ b ≠ 13#8 ∧ b ≠ 11#8 ∧ b ≠ 42#8 ∧ b ≠ 40#8

end Spec

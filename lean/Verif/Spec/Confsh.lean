import Verif.Model.Confsh
/-
The names in a list, and the switches a configuration lists.
-/

set_option autoImplicit false

namespace Spec
open Minilib

/-- What may stand between two names of a list: a comma, a blank, a tab, the end of a line. -/
def IsSep (b : Byte) : Prop := b = 44#8 ∨ b = 32#8 ∨ b = 9#8 ∨ b = 10#8

/-- `w` is one of the names in the text `l`: it has no separator in it, and there is one, or the end of the text, on both sides. -/
def NameIn (w l : Line) : Prop :=
  w ≠ [] ∧ (∀ b ∈ w, ¬ IsSep b) ∧
    ∃ p s, l = p ++ w ++ s ∧ (∀ c, p.getLast? = some c → IsSep c) ∧ ∀ c, s.head? = some c → IsSep c

/-- The line of the configuration lists the name: `mini_name ...`, or `compile ...` (in small or large letters) with the name in an argument. -/
def Lists (x : Line) : List Line → Prop
  | [] => False
  | c :: args => c = txMini ++ x ∨ ((c = nb [99, 111, 109, 112, 105, 108, 101] ∨ c = nb [67, 79, 77, 80, 73, 76, 69]) ∧ ∃ a ∈ args, NameIn x a)

/-- The macro `mini_x` is defined. -/
def On (o : ConfOut) (x : Line) : Prop := ∃ v, (txMini ++ x, v) ∈ o.defs

end Spec

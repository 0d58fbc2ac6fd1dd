import Verif.Model.Stripundefs
/-
Specification for C118: what a function switches on.
-/

set_option autoImplicit false

namespace Spec
open Minilib

/-- `n` is switched on by `f`: `f` depends on it, or on something that switches it on. -/
inductive Switches (dep : Line → Option (List Line)) : Line → Line → Prop
  | one {f n : Line} {ds : List Line} : dep f = some ds → n ∈ ds → Switches dep f n
  | more {f g n : Line} {ds : List Line} : dep f = some ds → g ∈ ds → Switches dep g n → Switches dep f n

/-- A way from `f` to `n` over names that do not begin with an underscore, to its end: `n` depends on nothing. -/
inductive LeadsTo (dep : Line → Option (List Line)) : Line → Line → Prop
  | last {n : Line} : dep n = none → LeadsTo dep n n
  | over {f g n : Line} {ds : List Line} : dep f = some ds → g ∈ ds → g.head? ≠ some 95#8 → LeadsTo dep g n → LeadsTo dep f n

/-- No function depends on itself, over any number of steps: the names can be numbered. -/
def Acyclic (dep : Line → Option (List Line)) : Prop := ∃ rank : Line → Nat, ∀ f ds g, dep f = some ds → g ∈ ds → rank g < rank f

end Spec

import Verif.Model.Genconf
/-
Calls in a source, and which of them are arguments of others.
-/

set_option autoImplicit false

namespace Spec
open Minilib

/-- The parentheses opened, and closed, in a piece of source. -/
def opens (l : List CTok) : Nat := l.count .opn
def closes (l : List CTok) : Nat := l.count .cls

/-- Only ends of lines. -/
def Breaks (l : List CTok) : Prop := ∀ t ∈ l, t = CTok.nl

/-- The source has a call of `n` behind `pre`. -/
def CallAt (src pre : List CTok) (n : Line) : Prop := ∃ nls post, Breaks nls ∧ src = pre ++ .name n :: (nls ++ .opn :: post)

/-- Behind `pre` one is in the arguments of a call of one of the names: its parenthesis is not closed. -/
def Inside (table : List Line) (pre : List CTok) : Prop :=
  ∃ a m nls mid, pre = a ++ .name m :: (nls ++ .opn :: mid) ∧ m ∈ table ∧ Breaks nls ∧ ∀ p, p <+: mid → closes p ≤ opens p

/-- The text `w` is in the text `l`. -/
def Occurs (w l : Line) : Prop := w <:+: l

/-- No part of the source looks like a mark, and the ends of lines are tokens of their own. -/
def Clean : CTok → Prop
  | .name n => ¬ Occurs [95#8, 77#8, 95#8] n ∧ 10#8 ∉ n
  | .other t => ¬ Occurs [95#8, 77#8, 95#8] t ∧ 10#8 ∉ t
  | _ => True

end Spec

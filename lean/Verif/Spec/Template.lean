import Verif.Model.Template
/-
A file with a place to fill.
-/

set_option autoImplicit false

namespace Spec
open Minilib

/-- A line names the start of a place (of any name), its end. -/
def Starts (p l : Line) : Prop := ∃ a b, l = a ++ p ++ [45#8, 115#8, 116#8, 97#8, 114#8, 116#8, 58#8, 32#8] ++ b
def Ends (p l : Line) : Prop := ∃ a b, l = a ++ p ++ [45#8, 101#8, 110#8, 100#8, 58#8, 32#8] ++ b

/-- The lines `NAME-start: TMPL` and `NAME-end: TMPL`, with something in front and behind. -/
def startLine (a p t : Line) : Line := a ++ p ++ [45#8, 115#8, 116#8, 97#8, 114#8, 116#8, 58#8, 32#8] ++ ([84#8, 77#8, 80#8, 76#8] ++ t)
def endLine (a p t : Line) : Line := a ++ p ++ [45#8, 101#8, 110#8, 100#8, 58#8, 32#8] ++ ([84#8, 77#8, 80#8, 76#8] ++ t)

/-- What follows begins with white space. -/
def Spaced (t : Line) : Prop := ∃ x q, t = x :: q ∧ plSpace x = true

/-- The mark is where it seems to be: the first character of the name does not stand in front of it. -/
def Plain (a p : Line) : Prop := ∃ x q, p = x :: q ∧ x ∉ a

end Spec

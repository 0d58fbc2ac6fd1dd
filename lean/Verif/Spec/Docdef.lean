import Verif.Model.Stripundefs
/-
C122: declarations put together from words, specifiers and attributes.
-/

set_option autoImplicit false

namespace Spec
open Minilib

/-- Parts of a declaration. -/
inductive DeclPart where
  | word (w : Line)
  | static | inline | volatile
  | attr (x : Line)

/-- A part as text. -/
def DeclPart.text : DeclPart → Line
  | .word w => w
  | .static => [115, 116, 97, 116, 105, 99]
  | .inline => [105, 110, 108, 105, 110, 101]
  | .volatile => [118, 111, 108, 97, 116, 105, 108, 101]
  | .attr x => [95, 95, 97, 116, 116, 114, 105, 98, 117, 116, 101, 95, 95, 40] ++ x ++ [41#8]

/-- A part as it is to be shown: specifiers and attributes are not. -/
def DeclPart.shown : DeclPart → Line
  | .word w => w
  | _ => []

/-- A text without any of the words that are taken away. -/
def NoSpec (w : Line) : Prop := ¬ [115, 116, 97, 116, 105, 99] <:+: w ∧ ¬ [105, 110, 108, 105, 110, 101] <:+: w ∧ ¬ [118, 111, 108, 97, 116, 105, 108, 101] <:+: w ∧ ¬ [95, 95, 97, 116, 116, 114, 105, 98, 117, 116, 101, 95, 95, 40] <:+: w

/-- Words are other words, attributes stay in a line. -/
def DeclPart.Fair : DeclPart → Prop
  | .word w => NoSpec w
  | .attr x => 10#8 ∉ x
  | _ => True

/-- Parts with blanks between them, and the rest of the declaration. -/
def declText (ps : List DeclPart) (last : Line) : Line := ps.flatMap (fun p => p.text ++ [32#8]) ++ last
def declShown (ps : List DeclPart) (last : Line) : Line := ps.flatMap (fun p => p.shown ++ [32#8]) ++ last

end Spec

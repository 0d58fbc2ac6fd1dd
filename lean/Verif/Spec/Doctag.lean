import Verif.Spec.Convertasm
import Verif.Model.Stripundefs
/-
C120: comments behind the tag `//+doc`, and the text in the documentation.
-/

set_option autoImplicit false

namespace Spec

open Minilib

/-- The first line of a comment: `//+doc` and a text. -/
def docHead (c : Line) : Line := [47, 47, 43, 100, 111, 99, 32] ++ c ++ [10#8]

/-- A further line of a comment. -/
def docLine (x : Line) : Line := [47, 47] ++ x ++ [10#8]

/-- A line of a comment has no newline, and a further one is no tag. -/
def DocText (xs : List Line) : Prop := ∀ x ∈ xs, 10#8 ∉ x ∧ x.head? ≠ some 43#8

/-- Behind a comment there is something else, or the next tag. -/
def DocEnd (rest : List Line) : Prop := ∀ l ∈ rest.head?, [47, 47] <+: l → [47, 47, 43] <+: l

/-- A text without the empty lines at its end. -/
def noTail : List Line → List Line
  | [] => []
  | x :: xs => if x = [] ∧ noTail xs = [] then [] else x :: noTail xs

/-- The text in the documentation: the first line 15 columns from the left, the others 13. -/
def docShown (ls : List Line) : Line :=
  List.replicate 15 32#8 ++ (match noTail ls with
    | [] => []
    | x :: xs => x ++ xs.flatMap (fun y => 10#8 :: (List.replicate 13 32#8 ++ y))) ++ [10#8]

end Spec

import Verif.Model.Headerof
/-
C124: the header a function belongs to.
-/

set_option autoImplicit false

namespace Spec
open Minilib

/-- The last tag in front of a place. -/
def LastTag (pre : List SrcItem) (k : Line) : Prop := ∃ a b, pre = a ++ .header k :: b ∧ ∀ x, .header x ∉ b

/-- `k` is the header of the function `f` with the items `pre` in front of it in the same file and `old` in the files before: the header of the standard; otherwise the
one of the last tag; otherwise one of the two of the library. -/
def Belongs (std : Line → Option Line) (old pre : List SrcItem) (f : Line) (sys : Bool) (k : Line) : Prop :=
  std f = some k ∨
  (std f = none ∧ LastTag pre k) ∨
  (std f = none ∧ (∀ x, .header x ∉ pre) ∧
    ((.func f true ∈ old ++ pre ++ [.func f sys] ∧ k = [109, 105, 110, 105, 95, 115, 121, 115, 99, 97, 108, 108, 115]) ∨ (.func f true ∉ old ++ pre ++ [.func f sys] ∧ k = [109, 105, 110, 105, 95, 97, 100, 100, 111, 110, 115, 46, 104])))

/-- How often a function is defined. -/
def defined (f : Line) (es : List SrcItem) : Nat := es.countP (fun i => match i with
  | .func g _ => g = f
  | _ => false)

end Spec

import Verif.Spec.Preproc
/-
Specification for C116: the lines of conditional inclusion, the depth at which they stand and the condition they belong to.
-/

set_option autoImplicit false

namespace Spec
open Minilib

/-- A line of conditional inclusion: its number, the number of conditions open at it, the line, and the number of the line with the condition it
belongs to. -/
structure CondLine where
  num : Nat
  depth : Nat
  line : Line
  owner : Nat
  deriving DecidableEq

/-- The lines of conditional inclusion of a text; `st` are the conditions open, by their line numbers.  `none`: the text is malformed. -/
def condLines (n : Nat) (st : List Nat) : List Line → Option (List CondLine)
  | [] => if st = [] then some [] else none
  | l :: ls =>
    match lineKind l with
    | .cond => (condLines (n + 1) ((n + 1) :: st) ls).map (⟨n + 1, st.length + 1, l, n + 1⟩ :: ·)
    | .elif | .els =>
      match st with
      | [] => none
      | o :: st => (condLines (n + 1) (o :: st) ls).map (⟨n + 1, st.length + 1, l, o⟩ :: ·)
    | .endif =>
      match st with
      | [] => none
      | o :: st => (condLines (n + 1) st ls).map (⟨n + 1, st.length + 1, l, o⟩ :: ·)
    | .other => condLines (n + 1) st ls

/-- Directives of conditional inclusion are written without blanks around the `#`, and there is no `#elif`. -/
def Plainly (l : Line) : Prop :=
  Flush l ∧ (lineKind l = .els ↔ [35#8, 101#8, 108#8, 115#8, 101#8] <+: l) ∧ lineKind l ≠ .elif

end Spec

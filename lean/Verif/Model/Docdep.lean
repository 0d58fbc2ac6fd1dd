import Verif.Model.Stripundefs
/-
The list behind "Defines:" in the documentation of a function, as it is generated: /repo/scripts/genheaders.pl.
The tags `depends` come as the list of names of every function that has one (lines 456 and 458).
-/

set_option autoImplicit false

namespace Minilib

/-- scripts/genheaders.pl:458-462: the loop of `rdep`, with the call of `rdep` (line 461) written out; the names in the order of `$r`.  A recursion
without end uses up the memory. -/
def rdepAll (dep : Line → Option (List Line)) : List Line → Res (List Line)
  | [] => .ok []
  | x :: xs =>
    if begins [95#8] x then rdepAll dep xs
    else match dep x with
      | none => do
        let s ← rdepAll dep xs
        pure (x :: s)
      | some ds => do
        let r ← rdepAll dep ds
        let s ← rdepAll dep xs
        pure (r ++ s)
partial_fixpoint

/-- scripts/genheaders.pl:453-464 `rdep`; the names behind "Defines:" (lines 467-472 and 520) are these, each once. -/
def rdep (dep : Line → Option (List Line)) (d : Line) : Res (List Line) :=
  match dep d with
  | none => .ok [d]
  | some ds => rdepAll dep ds

end Minilib

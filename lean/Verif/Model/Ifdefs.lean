import Verif.Model.Stripundefs
/-
The script that lists conditional directives with line numbers and depths: /repo/scripts/ifdefs.pl.
-/

set_option autoImplicit false

namespace Minilib

/-- `/^#else/`, scripts/ifdefs.pl:26. -/
def reElse : Line := [35#8, 101#8, 108#8, 115#8, 101#8]

/-- A line printed, scripts/ifdefs.pl:22,24,27: `$ifs`, `$ln` and `$l`.  The decimal notation of the numbers is left out. -/
structure IfdefsLine where
  ifs : Int
  ln : Nat
  line : Line
  deriving DecidableEq

/-- scripts/ifdefs.pl:17-32: the loop. -/
def ifdefs (ln : Nat) (ifs : Int) : List Line → List IfdefsLine
  | [] => []
  | l :: ls =>
    if begins reIf l then ⟨ifs + 1, ln + 1, l⟩ :: ifdefs (ln + 1) (ifs + 1) ls
    else if begins reEndif l then ⟨ifs, ln + 1, l⟩ :: ifdefs (ln + 1) (ifs - 1) ls
    else if begins reElse l then ⟨ifs, ln + 1, l⟩ :: ifdefs (ln + 1) ifs ls
    else ifdefs (ln + 1) ifs ls

end Minilib

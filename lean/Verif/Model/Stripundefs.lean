import Verif.C.Res
import Verif.C.Mem
/-
The script that takes `#if 0` parts out of the header compiled/minilib.h (Makefile:198): /repo/scripts/stripundefs.pl.
A text is the list of its lines (each with its newline).
-/

set_option autoImplicit false

namespace Minilib

/-- A line. -/
abbrev Line := List Byte

/-- `/^#if 0/`, scripts/stripundefs.pl:7. -/
def reIf0 : Line := [35#8, 105#8, 102#8, 32#8, 48#8]
/-- `/^#if/`, scripts/stripundefs.pl:13. -/
def reIf : Line := [35#8, 105#8, 102#8]
/-- `/^#endif/`, scripts/stripundefs.pl:11. -/
def reEndif : Line := [35#8, 101#8, 110#8, 100#8, 105#8, 102#8]

/-- The line begins with the text. -/
def begins (p l : Line) : Bool := p.isPrefixOf l

/-- scripts/stripundefs.pl:6-20; `c` is 0 in the outer loop (line 6) and `$c` in the inner one (lines 9-16).  At the end of the input `$l` is
undefined there, no pattern matches, and the loop goes on. -/
def stripUndefs : Nat → List Line → Res (List Line)
  | 0, [] => .ok []
  | _ + 1, [] => .div
  | 0, l :: ls =>
    if begins reIf0 l then stripUndefs 1 ls
    else do
      let r ← stripUndefs 0 ls
      pure (l :: r)
  | c + 1, l :: ls =>
    if begins reEndif l then stripUndefs c ls
    else if begins reIf l then stripUndefs (c + 2) ls
    else stripUndefs (c + 1) ls

end Minilib

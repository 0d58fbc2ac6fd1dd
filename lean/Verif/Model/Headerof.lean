import Verif.Model.Stripundefs
/-
Functions and their headers: /repo/scripts/genheaders.pl.
-/

set_option autoImplicit false

namespace Minilib

/-- What the script finds in a source: a tag `//+header`, or a function; `sys` if its line begins with `SYSDEF_syscall`, scripts/genheaders.pl:273-280,
293-296. -/
inductive SrcItem where
  | header (h : Line)
  | func (f : Line) (sys : Bool)
deriving DecidableEq

/-- scripts/genheaders.pl:386-403: the header; `std` is the list of the standard functions (scripts/cref.pm), `s` the system calls seen so far, `h` the
last tag in this file. -/
def chooseHeader (std : Line → Option Line) (s : List Line) (h : Option Line) (f : Line) : Line :=
  match std f with
  | some k => k
  | none => match h with
    | some k => k
    | none => if f ∈ s then [109, 105, 110, 105, 95, 115, 121, 115, 99, 97, 108, 108, 115] else [109, 105, 110, 105, 95, 97, 100, 100, 111, 110, 115, 46, 104]

/-- scripts/genheaders.pl:264-430, one file: the system calls seen, and what is listed in `$headerhash`, in order. `if ( $func )`, line 385, leaves out the names that
are false in Perl. -/
def regFile (std : Line → Option Line) (s : List Line) (h : Option Line) : List SrcItem → List Line × List (Line × Line)
  | [] => (s, [])
  | .header k :: es => regFile std s (some k) es
  | .func f b :: es =>
    let s' := if b then f :: s else s
    let r := regFile std s' h es
    (r.1, if f = [] ∨ f = [48#8] then r.2 else (chooseHeader std s' h f, f) :: r.2)

/-- scripts/genheaders.pl:253-430: all the files; `$header` is new in each (line 264), the system calls are kept. -/
def regFiles (std : Line → Option Line) (s : List Line) : List (List SrcItem) → List (Line × Line)
  | [] => []
  | f :: fs => (regFile std s none f).2 ++ regFiles std (regFile std s none f).1 fs

end Minilib

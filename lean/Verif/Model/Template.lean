import Verif.Model.Stripundefs
/-
The script that puts texts between marked lines of a file (Makefile:156-182, for minimake): /repo/scripts/template.pl and /repo/scripts/template.pm.
A text is the list of its lines.  The name of the place is taken to contain no characters with a meaning in patterns.
-/

set_option autoImplicit false

namespace Minilib

/-- What follows the first occurrence of `p` in a line. -/
def findAfter (p : Line) : Line → Option Line
  | [] => if p = [] then some [] else none
  | b :: l => if begins p (b :: l) then some ((b :: l).drop p.length) else findAfter p l

/-- `\s` of Perl. -/
def plSpace (b : Byte) : Bool := b = 32#8 || (9 ≤ b.toNat && b.toNat ≤ 13)

/-- `-start: ` and `-end:`. -/
def txStart : Line := [45#8, 115#8, 116#8, 97#8, 114#8, 116#8, 58#8, 32#8]
def txEnd : Line := [45#8, 101#8, 110#8, 100#8, 58#8]
/-- `TMPL`, the only name with a handler (scripts/template.pl:58). -/
def txTMPL : Line := [84#8, 77#8, 80#8, 76#8]

/-- scripts/template.pm:20: `/$tmplpraefix-start: (\S*)/`. -/
def startMark (p l : Line) : Option Line := (findAfter (p ++ txStart) l).map (·.takeWhile (!plSpace ·))
/-- scripts/template.pm:31: `/$tmplpraefix-end: (\S*)/`. -/
def endMark (p l : Line) : Bool := (findAfter (p ++ txEnd ++ [32#8]) l).isSome
/-- scripts/template.pm:36: `/$tmplpraefix-end:\s*(\S*)/`. -/
def endName (p l : Line) : Option Line := (findAfter (p ++ txEnd) l).map (fun r => (r.dropWhile plSpace).takeWhile (!plSpace ·))

/-- scripts/template.pm:18-44 with the handler of scripts/template.pl:47-52: what goes to the temporary file, `none` when the function returns
before the file is written.  `inner`: in the loop of lines 31-35.  The handler prints what is left of the input, so nothing the second time
(`text = []`).  At the end of the file in the inner loop `$l` is undefined, and `$1` still the name of line 20: no error. -/
def tmplLoop (p : Line) (insert : Bool) (inner : Bool) (text : List Line) : List Line → Option (List Line)
  | [] => some []
  | l :: ls =>
    if inner then
      if endMark p l then
        if endName p l = some txTMPL then (tmplLoop p insert false text ls).map (l :: ·) else none
      else if insert then (tmplLoop p insert true text ls).map (l :: ·)
      else tmplLoop p insert true text ls
    else
      match startMark p l with
      | none => (tmplLoop p insert false text ls).map (l :: ·)
      | some m => if m = txTMPL then (tmplLoop p insert true [] ls).map (fun r => l :: (text ++ r)) else none

/-- scripts/template.pl: the file afterwards (the temporary file next to it is not modelled). -/
def template (p : Line) (insert : Bool) (text file : List Line) : List Line :=
  (tmplLoop p insert false text file).getD file

end Minilib

import Verif.Model.Convertasm
/-
The name and the declaration taken from the line behind a tag `//+def`: /repo/scripts/genheaders.pl.
-/

set_option autoImplicit false

namespace Minilib

/-- `.*?\)\{.*$`, scripts/genheaders.pl:323: a closing bracket and a brace somewhere in the line. -/
def reClose : Line → Bool
  | [] => false
  | b :: r => begins [41#8, 123#8] (b :: r) || reClose r

/-- `(\S*)\(.*?\)\{.*$` at one place, scripts/genheaders.pl:323: `\S*` takes as much as it can, so the name ends at the last bracket of the run from
which the rest matches. -/
def reNameAt : Line → Option Line
  | [] => none
  | b :: r =>
    if reSpace b then none
    else match reNameAt r with
      | some c => some (b :: c)
      | none => if b = 40#8 ∧ reClose r = true then some [] else none

/-- `/.* \**(\S*)\(.*?\)\{.*$/`, scripts/genheaders.pl:323: `.*` takes as much as it can, so the last blank from which the rest matches counts; `$1`.
Giving back stars does not help when the rest does not match behind all of them. -/
def reDefName : Line → Option Line
  | [] => none
  | b :: r => match reDefName r with
    | some c => some c
    | none => if b = 32#8 then reNameAt (r.dropWhile (· = 42#8)) else none

/-- `s/\{.*$/;/`, scripts/genheaders.pl:328; the newline stays. -/
def reBody (l : Line) : Line :=
  if l.contains 123#8 then l.takeWhile (· ≠ 123#8) ++ [59#8] ++ (if l.getLast? = some 10#8 then [10#8] else []) else l

/-- scripts/genheaders.pl:310-328: the function and its declaration; `tag` is the word behind `//+` (`def` or `inline`), `c` the rest of that line, `l` the
next one.  Where the pattern does not match, `$1` is still the one of line 286.  Lines that begin with DEF_syscall are left out. -/
def defTag (tag c l : Line) : Line × Line :=
  (if c.length > 1 then c else (reDefName l).getD tag, reBody l)

/-- `(\S*?)\(` at one place, scripts/genheaders.pl:363, 374. -/
def reCallAt : Line → Option Line
  | [] => none
  | b :: r => if b = 40#8 then some [] else if reSpace b then none else (reCallAt r).map (b :: ·)

/-- `(\S*?)\(`, scripts/genheaders.pl:363: the first place where it matches. -/
def reCall : Line → Option Line
  | [] => none
  | b :: r => match reCallAt (b :: r) with
    | some c => some c
    | none => reCall r

/-- `#define\s*(\S*?)\(`, scripts/genheaders.pl:374: the first place where it matches. -/
def reDefine : Line → Option Line
  | [] => none
  | b :: r =>
    match (if begins [35, 100, 101, 102, 105, 110, 101] (b :: r) then reCallAt (((b :: r).drop 7).dropWhile reSpace) else none) with
    | some c => some c
    | none => reDefine r

/-- scripts/genheaders.pl:359-377: the name (`$1`, nothing if the pattern does not match) and the definition; `c` is what is behind `//+macro` and blanks, `l`
the next line. Simplified: if the pattern of line 374 does not match and the next line is no comment, Perl keeps the `$1` of an earlier match. -/
def macroTag (c l : Line) : Line × Line :=
  if c ≠ [] then ((reCall c).getD [], [35, 100, 101, 102, 105, 110, 101, 32] ++ c)
  else
    let d := if begins [47, 47] l then l.drop 2 else l
    ((reDefine d).getD [], d)

end Minilib

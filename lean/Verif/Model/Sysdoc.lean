import Verif.Model.Stripundefs
import Verif.Model.Convertasm
/-
System calls in the documentation: /repo/scripts/genheaders.pl.
-/

set_option autoImplicit false

namespace Minilib

/-- `\d` in a pattern, scripts/genheaders.pl:508. -/
def reDigit (b : Byte) : Bool := 48 ≤ b.toNat && b.toNat ≤ 57

/-- `,\s*\d*\s*,` at one place, scripts/genheaders.pl:508: what is left behind it. -/
def reCount : Line → Option Line
  | [] => none
  | b :: r =>
    if b = 44#8 then
      match ((r.dropWhile reSpace).dropWhile reDigit).dropWhile reSpace with
      | [] => none
      | c :: t => if c = 44#8 then some t else none
    else none

/-- `(\S*),\s*\d*\s*,`, scripts/genheaders.pl:508: `\S*` takes as much as it can; the name and what is left. -/
def reSysName : Line → Option (Line × Line)
  | [] => none
  | b :: r =>
    match (if reSpace b then none else reSysName r) with
    | some p => some (b :: p.1, p.2)
    | none => (reCount (b :: r)).map (fun t => ([], t))

/-- `s/DEF_syscall.(\S*),\s*\d*\s*,/$1(/`, scripts/genheaders.pl:508, 588; the first place where it matches. Simplified: the substitution for
`DEF_syscallret` in the next line is left out, it changes no other lines. -/
def sysDoc : Line → Line
  | [] => []
  | b :: r =>
    match (if begins [68, 69, 70, 95, 115, 121, 115, 99, 97, 108, 108] (b :: r) = true ∧ ((b :: r).drop 11).head? ≠ some 10#8 then reSysName ((b :: r).drop 12) else none) with
    | some p => p.1 ++ 40#8 :: p.2
    | none => b :: sysDoc r

/-- `/^DEF_syscall(ret)*.(.*?),/`, scripts/genheaders.pl:273-275: the name under which the call is registered. Simplified: without `ret`. -/
def sysRegister (l : Line) : Option Line :=
  if begins [68, 69, 70, 95, 115, 121, 115, 99, 97, 108, 108] l = true ∧ (l.drop 11).head? ≠ some 10#8 ∧ (l.drop 12).contains 44#8 = true ∧ ¬ ((l.drop 12).takeWhile (· ≠ 44#8)).contains 10#8 = true then
    some ((l.drop 12).takeWhile (· ≠ 44#8)) else none

end Minilib

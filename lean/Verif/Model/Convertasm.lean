import Verif.Model.Stripundefs
/-
The script that turns an assembler file into a C file with an `asm` statement: /repo/scripts/convertasm.pl.
The input is the list of its lines after `chomp` (line 23); the message on line 10 is left out.
-/

set_option autoImplicit false

namespace Minilib

/-- `\s` in a pattern, scripts/convertasm.pl:24-26. -/
def reSpace (b : Byte) : Bool := b = 32#8 || b = 9#8 || b = 10#8 || b = 12#8 || b = 13#8 || b = 11#8

/-- `s/^\s*//`, scripts/convertasm.pl:24. -/
def reLead (l : Line) : Line := l.dropWhile reSpace

/-- `s/\s*\#.*$//`, scripts/convertasm.pl:25: the leftmost match begins with the blanks in front of the first `#`. -/
def reComment (l : Line) : Line :=
  if l.contains 35#8 then ((l.takeWhile (· ≠ 35#8)).reverse.dropWhile reSpace).reverse else l

/-- `/\S\S/`, scripts/convertasm.pl:26. -/
def reTwo : Line → Bool
  | a :: b :: r => (!reSpace a && !reSpace b) || reTwo (b :: r)
  | _ => false

/-- "global ", scripts/convertasm.pl:27. -/
def reGlobalWord : Line := [103#8, 108#8, 111#8, 98#8, 97#8, 108#8, 32#8]

/-- `/.global (\S*)/`, scripts/convertasm.pl:27: the leftmost match and its `$1`.  The first point of the pattern is any byte. -/
def reGlobal : Line → Option Line
  | [] => none
  | _ :: r => if begins reGlobalWord r then some ((r.drop 7).takeWhile (fun b => !reSpace b)) else reGlobal r

/-- `(\S*):` at one place of a line, scripts/convertasm.pl:32: `\S*` takes as much as it can, so the match ends at the last colon of the run. -/
def reColonAt : Line → Option Line
  | [] => none
  | b :: r =>
    if reSpace b then none
    else match reColonAt r with
      | some c => some (b :: c)
      | none => if b = 58#8 then some [] else none

/-- `/(\S*):/`, scripts/convertasm.pl:32: the leftmost match and its `$1`. -/
def reColon : Line → Option Line
  | [] => none
  | b :: r => match reColonAt (b :: r) with
    | some c => some c
    | none => reColon r

/-- "void ", scripts/convertasm.pl:28. -/
def caVoid : Line := [118#8, 111#8, 105#8, 100#8, 32#8]
/-- "(){\n", scripts/convertasm.pl:28. -/
def caOpen : Line := [40#8, 41#8, 123#8, 10#8]
/-- "};\n", scripts/convertasm.pl:29. -/
def caClose : Line := [125#8, 59#8, 10#8]
/-- "#ifdef mini_start\n__asm__ volatile (\n", scripts/convertasm.pl:17-19. -/
def caHead : Line := [35, 105, 102, 100, 101, 102, 32, 109, 105, 110, 105, 95, 115, 116, 97, 114, 116, 10,
  95, 95, 97, 115, 109, 95, 95, 32, 118, 111, 108, 97, 116, 105, 108, 101, 32, 40, 10]
/-- "\t);\n", scripts/convertasm.pl:41. -/
def caEnd : Line := [9#8, 41#8, 59#8, 10#8]
/-- "#endif\n", scripts/convertasm.pl:43. -/
def caEndif : Line := [35#8, 101#8, 110#8, 100#8, 105#8, 102#8, 10#8]

/-- The variables of the loop: `@a` in front of the head (`front`), `@a` behind it (`back`), `$e`, and the keys of `%symbols`. -/
structure CaState where
  front : List Byte
  back : List Byte
  close : List Byte
  syms : List Line

/-- A line of assembler as a C string, scripts/convertasm.pl:36. -/
def caString (l : Line) : Line := [9#8, 9#8, 34#8] ++ l ++ [92#8, 110#8, 92#8, 116#8, 34#8, 10#8]

/-- scripts/convertasm.pl:24-39: one pass of the loop. -/
def caLine (st : CaState) (l : Line) : CaState :=
  let l := reComment (reLead l)
  if reTwo l = false then st
  else match reGlobal l with
    | some n => { st with front := caVoid ++ n ++ caOpen ++ st.front, close := caClose, syms := n :: st.syms }
    | none =>
      if (match reColon l with | some c => st.syms.contains c | none => false) then st
      else if begins [35#8] l then { st with back := st.back ++ l ++ [10#8] }
      else { st with back := st.back ++ caString l }

/-- scripts/convertasm.pl:14-46: the text written. -/
def convertAsm (ls : List Line) : List Byte :=
  let st := ls.foldl caLine ⟨[], [], [], []⟩
  st.front ++ caHead ++ st.back ++ caEnd ++ st.close ++ caEndif ++ [10#8]

end Minilib

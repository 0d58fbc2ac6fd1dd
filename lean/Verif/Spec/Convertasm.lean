import Verif.Model.Stripundefs
/-
Specification for C115: what an assembler reads in a text, and what text a C compiler hands to it for the string of an `asm` statement.
-/

set_option autoImplicit false

open Minilib

namespace Spec

/-- Blanks in a line of a text. -/
def asmBlank (b : Byte) : Bool := b = 32#8 || b = 9#8 || b = 10#8 || b = 12#8 || b = 13#8 || b = 11#8

/-- A line without the blanks around it. -/
def trimBlanks (l : Line) : Line := ((l.dropWhile asmBlank).reverse.dropWhile asmBlank).reverse

/-- The statement of a line: what stands in front of the comment. -/
def stmtOf (l : Line) : Line := trimBlanks (l.takeWhile (· ≠ 35#8))

/-- The statements of a text. -/
def program (ls : List Line) : List Line := (ls.map stmtOf).filter (· ≠ [])

/-- A text as its lines. -/
def splitLines : List Byte → List Line
  | [] => [[]]
  | b :: r => if b = 10#8 then [] :: splitLines r else
    match splitLines r with
    | [] => [[b]]
    | l :: ls => (b :: l) :: ls

/-- ".global ". -/
def globalWord : Line := [46#8, 103#8, 108#8, 111#8, 98#8, 97#8, 108#8, 32#8]

/-- The name a statement exports. -/
def exportOf (s : Line) : Option Line := if globalWord.isPrefixOf s then some (s.drop 8) else none

/-- The statements left of a program when the exported names become C functions: without the exports and the labels of names exported before. -/
def bodyOf : List Line → List Line → List Line
  | _, [] => []
  | syms, s :: r =>
    match exportOf s with
    | some n => bodyOf (n :: syms) r
    | none => if syms.any (fun n => s = n ++ [58#8]) then bodyOf syms r else s :: bodyOf syms r

/-- The names a program exports, in order. -/
def exportsOf (p : List Line) : List Line := p.filterMap exportOf

/-- What the next bytes of a C text are read as. -/
inductive CState where
  | between
  | inside
  | escape
  deriving DecidableEq

/-- The text of the string literals up to the closing bracket, and what follows the bracket. -/
def cStrings : CState → List Byte → Option (List Byte × List Byte)
  | _, [] => none
  | .between, b :: r =>
    if asmBlank b then cStrings .between r
    else if b = 34#8 then cStrings .inside r
    else if b = 41#8 then some ([], r)
    else none
  | .inside, b :: r =>
    if b = 34#8 then cStrings .between r
    else if b = 92#8 then cStrings .escape r
    else if b = 10#8 then none
    else (cStrings .inside r).map (fun x => (b :: x.1, x.2))
  | .escape, b :: r =>
    if b = 110#8 then (cStrings .inside r).map (fun x => (10#8 :: x.1, x.2))
    else if b = 116#8 then (cStrings .inside r).map (fun x => (9#8 :: x.1, x.2))
    else if b = 34#8 ∨ b = 92#8 then (cStrings .inside r).map (fun x => (b :: x.1, x.2))
    else none

/-- The bytes of a text. -/
def txt (s : String) : Line := s.toList.map (fun c => BitVec.ofNat 8 c.toNat)

/-- The head of the C function of an exported name. -/
def fnHead (n : Line) : List Byte := txt "void " ++ n ++ txt "(){\n"

/-- As many brackets `{` as `}`. -/
def Braced (t : List Byte) : Prop := t.count 123#8 = t.count 125#8

end Spec

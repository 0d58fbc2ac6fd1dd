import Verif.Model.Convertasm
/-
The tag `//+doc`: /repo/scripts/genheaders.pl.
-/

set_option autoImplicit false

namespace Minilib

/-- `/^\/\/\+(\S*)\s?(.*)?$/` and `$2 || 0`, scripts/genheaders.pl:286-288: what is behind the tag; neither an empty text nor `0` is true. -/
def tagArg (l : Line) : Line :=
  let c := (((l.drop 3).dropWhile (fun b => !reSpace b)).drop 1).takeWhile (· ≠ 10#8)
  if c = [] ∨ c = [48#8] then [48#8] else c

/-- scripts/genheaders.pl:347-351: the lines of the comment, up to the next tag; the text, and the lines left. -/
def docLoop : List Line → Line × List Line
  | [] => ([], [])
  | l :: ls =>
    if begins [47, 47] l = true ∧ begins [47, 47, 43] l = false then
      (10#8 :: ((l.drop 2).takeWhile (· ≠ 10#8) ++ (docLoop ls).1), (docLoop ls).2)
    else ([], l :: ls)

/-- scripts/genheaders.pl:341-351: the text of the function so far (`old`), the line with the tag and the lines behind it. -/
def docTag (old : Option Line) (l : Line) (ls : List Line) : Line × List Line :=
  (old.getD [] ++ tagArg l ++ (docLoop ls).1, (docLoop ls).2)

/-- `split( "\n", … )`: the fields, the empty ones at the end, too. -/
def splitNl : Line → List Line
  | [] => [[]]
  | b :: r => if b = 10#8 then [] :: splitNl r else match splitNl r with
    | f :: fs => (b :: f) :: fs
    | [] => [[b]]

/-- perl's split drops the empty fields at the end. -/
def dropEmptyEnd (fs : List Line) : List Line := (fs.reverse.dropWhile List.isEmpty).reverse

/-- `join`. -/
def joinWith (sep : Line) : List Line → Line
  | [] => []
  | [f] => f
  | f :: g :: fs => f ++ sep ++ joinWith sep (g :: fs)

/-- scripts/genheaders.pl:525, 707: the text of a function in doc/minilib.txt. -/
def docPrint (doc : Line) : Line :=
  List.replicate 15 32#8 ++ joinWith (10#8 :: List.replicate 13 32#8) (dropEmptyEnd (splitNl doc)) ++ [10#8]

end Minilib

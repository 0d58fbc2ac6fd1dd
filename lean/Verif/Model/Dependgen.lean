import Verif.Model.Stripundefs
/-
The part of minilib.h in which functions switch on what they depend on, as it is generated: /repo/scripts/genheaders.pl.
The tags `depends` come as the list of names for every function (line 736, `split`), the keys of the hash `$depends` as a list in any order
(lines 797 and 801 go through the same hash, which is not changed in between, so the order is the same).
-/

set_option autoImplicit false

namespace Minilib

/-- "#ifdef mini_", scripts/genheaders.pl:735. -/
def gdIfdef : Line := [35, 105, 102, 100, 101, 102, 32, 109, 105, 110, 105, 95]
/-- "#ifndef mini_", scripts/genheaders.pl:737. -/
def gdIfndef : Line := [35, 105, 102, 110, 100, 101, 102, 32, 109, 105, 110, 105, 95]
/-- "#define mini_", scripts/genheaders.pl:737. -/
def gdDefine : Line := [35, 100, 101, 102, 105, 110, 101, 32, 109, 105, 110, 105, 95]
/-- "#endif\n", scripts/genheaders.pl:737 and 740. -/
def gdEndif : Line := [35, 101, 110, 100, 105, 102, 10]
/-- "//dep\n", scripts/genheaders.pl:735. -/
def gdNote : Line := [47, 47, 100, 101, 112, 10]

/-- scripts/genheaders.pl:736-739: the lines for one name depended on (`$includefirst` is left out). -/
def gdOn (on : Line) : List Line := [gdIfndef ++ on ++ [10#8], gdDefine ++ on ++ [10#8], gdEndif]

/-- scripts/genheaders.pl:731-741 `printdepend`. -/
def printdepend (dep : Line → List Line) (d : Line) : List Line :=
  [[10#8], gdIfdef ++ d ++ [10#8], gdNote] ++ (dep d).flatMap gdOn ++ [gdEndif]

/-- scripts/genheaders.pl:797-803: two passes over the keys. -/
def dependText (dep : Line → List Line) (keys : List Line) : List Line :=
  keys.flatMap (printdepend dep) ++ keys.flatMap (printdepend dep)

end Minilib

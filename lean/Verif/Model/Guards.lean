import Verif.Model.Stripundefs
/-
The frame of a generated header: /repo/scripts/genheaders.pl.
-/

set_option autoImplicit false

namespace Minilib

/-- `s/\./_/g; s/\//_/g`, scripts/genheaders.pl:225-227. -/
def guardName (h : Line) : Line := h.map (fun b => if b = 46#8 ∨ b = 47#8 then 95#8 else b)

/-- scripts/genheaders.pl:228: `#ifndef included_…`, `#define included_…` and an empty line. -/
def headerTop (h : Line) : List Line :=
  [[35, 105, 102, 110, 100, 101, 102, 32, 105, 110, 99, 108, 117, 100, 101, 100, 95] ++ guardName h ++ [10#8], [35, 100, 101, 102, 105, 110, 101, 32, 105, 110, 99, 108, 117, 100, 101, 100, 95] ++ guardName h ++ [10#8], [10#8]]

/-- scripts/genheaders.pl:442: `#include "…"`. -/
def srcLine (s : Line) : Line := [35, 105, 110, 99, 108, 117, 100, 101, 32, 34] ++ s ++ [34#8, 10#8]

/-- scripts/genheaders.pl:438-439: the global definitions, and the condition on mini_INCLUDESRC. -/
def headerMid : List Line :=
  [[10#8], [10#8], [35, 105, 110, 99, 108, 117, 100, 101, 32, 34, 105, 110, 99, 108, 117, 100, 101, 47, 109, 105, 110, 105, 108, 105, 98, 95, 103, 108, 111, 98, 97, 108, 46, 104, 34, 10],
   [10#8], [10#8], [35, 105, 102, 100, 101, 102, 32, 109, 105, 110, 105, 95, 73, 78, 67, 76, 85, 68, 69, 83, 82, 67, 10], [10#8]]

/-- scripts/genheaders.pl:444-446: the files needed by all the others, and the end of the condition. -/
def headerEnd : List Line :=
  [[10#8], [47, 47, 32, 78, 101, 101, 100, 32, 103, 108, 111, 98, 97, 108, 32, 105, 110, 99, 108, 117, 100, 101, 100, 46, 32, 68, 111, 101, 115, 110, 39, 116, 32, 109, 97, 116, 116, 101, 114, 32, 98, 121, 32, 119, 104, 105, 99, 104, 32, 102, 105, 108, 101, 46, 10],
   [35, 105, 110, 99, 108, 117, 100, 101, 32, 34, 115, 114, 99, 47, 109, 105, 110, 105, 108, 105, 98, 95, 103, 108, 111, 98, 97, 108, 46, 99, 34, 10],
   [10#8], [47, 47, 32, 78, 101, 101, 100, 32, 115, 116, 97, 114, 116, 46, 99, 32, 105, 110, 99, 108, 117, 100, 101, 100, 46, 32, 68, 111, 101, 115, 110, 39, 116, 32, 109, 97, 116, 116, 101, 114, 32, 98, 121, 32, 119, 104, 105, 99, 104, 32, 102, 105, 108, 101, 46, 10],
   [35, 105, 110, 99, 108, 117, 100, 101, 32, 34, 97, 115, 109, 47, 115, 116, 97, 114, 116, 46, 99, 34, 10], [10#8],
   [35, 101, 110, 100, 105, 102, 10], [10#8]]

/-- A generated header: scripts/genheaders.pl:225-229 (templates left out), 425 (the declarations, given as lines) and 438-448. -/
def headerText (h : Line) (decls : List Line) (srcs : List Line) : List Line :=
  headerTop h ++ decls ++ headerMid ++ srcs.map srcLine ++ headerEnd ++ [[35, 101, 110, 100, 105, 102, 10]]

end Minilib

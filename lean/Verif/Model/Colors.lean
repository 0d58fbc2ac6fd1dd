import Verif.C.Mem
/-
Colours of the terminal: /repo/include/ansicolors.h.
-/

set_option autoImplicit false

namespace Minilib

/-- The bytes of a string literal `"\033..."`. -/
def ac (s : List Char) : List Byte := 27#8 :: s.map fun c => BitVec.ofNat 8 c.toNat

/-- include/ansicolors.h:55-95, the macros with the strings they stand for. -/
def acTable : List (String × List Byte) :=
  [("AC_NORM", ac ['[', '0', ';', '3', '8', ';', '4', '0', 'm']),
   ("AC_BLACK", ac ['[', '0', ';', '3', '0', 'm']),
   ("AC_RED", ac ['[', '0', ';', '3', '1', 'm']),
   ("AC_GREEN", ac ['[', '0', ';', '3', '2', 'm']),
   ("AC_BROWN", ac ['[', '0', ';', '3', '3', 'm']),
   ("AC_BLUE", ac ['[', '0', ';', '3', '4', 'm']),
   ("AC_MAGENTA", ac ['[', '0', ';', '3', '5', 'm']),
   ("AC_MARINE", ac ['[', '0', ';', '3', '6', 'm']),
   ("AC_CYAN", ac ['[', '0', ';', '3', '6', 'm']),
   ("AC_LGREY", ac ['[', '0', ';', '3', '7', 'm']),
   ("AC_WHITE", ac ['[', '0', ';', '3', '8', 'm']),
   ("AC_GREY", ac ['[', '1', ';', '3', '0', 'm']),
   ("AC_LRED", ac ['[', '1', ';', '3', '1', 'm']),
   ("AC_LGREEN", ac ['[', '1', ';', '3', '2', 'm']),
   ("AC_YELLOW", ac ['[', '1', ';', '3', '3', 'm']),
   ("AC_LBLUE", ac ['[', '1', ';', '3', '4', 'm']),
   ("AC_LMAGENTA", ac ['[', '1', ';', '3', '5', 'm']),
   ("AC_LMARINE", ac ['[', '1', ';', '3', '6', 'm']),
   ("AC_LCYAN", ac ['[', '1', ';', '3', '6', 'm']),
   ("AC_LWHITE", ac ['[', '1', ';', '3', '7', 'm']),
   ("AC_BGBLACK", ac ['[', '4', '0', 'm']),
   ("AC_BGRED", ac ['[', '4', '1', 'm']),
   ("AC_BGGREEN", ac ['[', '3', '2', ';', '0', 'm']),
   ("AC_BGBROWN", ac ['[', '4', '3', 'm']),
   ("AC_BGBLUE", ac ['[', '4', '4', 'm']),
   ("AC_BGMAGENTA", ac ['[', '4', '5', 'm']),
   ("AC_BGMARINE", ac ['[', '4', '6', 'm']),
   ("AC_BGLGREY", ac ['[', '4', '7', 'm']),
   ("AC_BGWHITE", ac ['[', '4', '8', 'm']),
   ("AC_BOLD", ac ['[', '1', 'm']),
   ("AC_FAINT", ac ['[', '2', 'm']),
   ("AC_CURSIVE", ac ['[', '3', 'm']),
   ("AC_UNDERLINE", ac ['[', '4', 'm']),
   ("AC_LIGHTBG", ac ['[', '5', 'm']),
   ("AC_BLINK", ac ['[', '6', 'm']),
   ("AC_INVERTED", ac ['[', '7', 'm']),
   ("AC_INVERSE", ac ['[', '8', 'm'])]

/-- The string a macro stands for. -/
def acString (name : String) : Option (List Byte) := acTable.lookup name

/-- include/ansicolors.h:106-137, the names defined with `mini_shortcolornames`, and the macros they stand for. -/
def shortColors : List (String × String) :=
  [("NORM", "AC_NORM"), ("INVERSE", "AC_INVERSE"), ("BLINK", "AC_BLINK"), ("BLACK", "AC_BLACK"),
   ("RED", "AC_RED"), ("GREEN", "AC_GREEN"), ("BROWN", "AC_BROWN"), ("BLUE", "AC_BLUE"),
   ("MAGENTA", "AC_MAGENTA"), ("MARINE", "AC_MARINE"), ("CYAN", "AC_MARINE"), ("LGREY", "AC_LGREY"),
   ("WHITE", "AC_WHITE"), ("GREY", "AC_GREY"), ("LRED", "AC_LRED"), ("LGREEN", "AC_LGREEN"),
   ("YELLOW", "AC_YELLOW"), ("LBLUE", "AC_LBLUE"), ("LMAGENTA", "AC_LMAGENTA"), ("LMARINE", "AC_LMARINE"),
   ("LCYAN", "AC_LMARINE"), ("LWHITE", "AC_LWHITE"), ("BGBLACK", "AC_BGBLACK"), ("BGRED", "AC_BGRED"),
   ("BGGREEN", "AC_BGGREEN"), ("BGBROWN", "AC_BGBROWN"), ("BGBLUE", "AC_BGBLUE"), ("BGMAGENTA", "AC_BGMAGENTA"),
   ("BGMARINE", "AC_BGMARINE"), ("BGLGREY", "AC_BGLGREY"), ("BGWHITE", "AC_BGWHITE")]

end Minilib

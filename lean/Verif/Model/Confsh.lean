import Verif.Model.Genconf
/-
The configuration files of minimake: they are read by the shell, their commands are the functions of /repo/scripts/genconfig.sh (the copy in
/repo/minimake:1098-2009 is the same text).
-/

set_option autoImplicit false

namespace Minilib

/-! ### The shell -/

/-- The bytes of IFS: blank, tab, end of line. -/
def isIfs (b : Byte) : Bool := b == 32#8 || b == 9#8 || b == 10#8

/-- Splitting an unquoted expansion into words; `w` is the word read so far.  Not modelled: patterns (`*`, `?`) in it. -/
def shSplit (w : Line) : Line → List Line
  | [] => if w = [] then [] else [w]
  | b :: l => if isIfs b then (if w = [] then shSplit [] l else w :: shSplit [] l) else shSplit (w ++ [b]) l

/-- `echo`: the words with a blank between.  Not modelled: a first word that is an option of echo. -/
def shEcho : List Line → Line
  | [] => []
  | [a] => a
  | a :: b :: r => a ++ 32#8 :: shEcho (b :: r)

/-- `tr ',' ' '`. -/
def trComma (l : Line) : Line := l.map fun b => if b = 44#8 then 32#8 else b

/-- scripts/genconfig.sh:27 and 33: the words that `compile` goes through, from `echo $* | tr ',' ' '`. -/
def compileWords (args : List Line) : List Line := shSplit [] (trComma (shEcho (args.flatMap (shSplit []))))

/-! ### The commands -/

/-- `mini_`. -/
def txMini : Line := nb [109, 105, 110, 105, 95]

/-- What a configuration gives: the macros (name and value) in order, and the commands that are not known. -/
structure ConfOut where
  defs : List (Line × Line) := []
  unknown : List Line := []
  deriving DecidableEq

def ConfOut.append (a b : ConfOut) : ConfOut := ⟨a.defs ++ b.defs, a.unknown ++ b.unknown⟩

/-- `dirbufsize`, the one generated function that is no macro of minilib.genconf.h (scripts/genconfig.sh:397). -/
def nmDirbufsize : Line := nb [100, 105, 114, 98, 117, 102, 115, 105, 122, 101]
/-- The functions defined by hand that print their argument (scripts/genconfig.sh:42, 82): start, buf. -/
def confValue : List Line := 
  [nb [115, 116, 97, 114, 116],
   nb [98, 117, 102]]
/-- The functions defined by hand that print no value (scripts/genconfig.sh:49, 112, 164, 193, 197): setjmp, GETOPTS, syscalls, getopt, getopt_long. -/
def confPlain : List Line := 
  [nb [115, 101, 116, 106, 109, 112],
   nb [71, 69, 84, 79, 80, 84, 83],
   nb [115, 121, 115, 99, 97, 108, 108, 115],
   nb [103, 101, 116, 111, 112, 116],
   nb [103, 101, 116, 111, 112, 116, 95, 108, 111, 110, 103]]
/-- The functions defined by hand that print their name without `mini_` (scripts/genconfig.sh:86, 154): INCLUDESRC, HEADERGUARDS. -/
def confBare : List Line := 
  [nb [73, 78, 67, 76, 85, 68, 69, 83, 82, 67],
   nb [72, 69, 65, 68, 69, 82, 71, 85, 65, 82, 68, 83]]
/-- longjmp, that is setjmp (scripts/genconfig.sh:53). -/
def nmLongjmp : Line := nb [108, 111, 110, 103, 106, 109, 112]
def nmSetjmp : Line := nb [115, 101, 116, 106, 109, 112]
def nmDefine : Line := nb [100, 101, 102, 105, 110, 101]

/-- scripts/genconfig.sh:202-208, `mini_define name value`: without value the name is the value. -/
def miniDefine (name value : Line) : ConfOut := { defs := [(txMini ++ name, if value = [] then name else value)] }

/-- A call of the function `mini_f`.  The generated ones (scripts/genconfig.sh:215-912; they come last and replace errno, exit and globals from above) hand
the first word of their argument to `mini_define`.  Simplified: a value of `mini_define` itself is one word. -/
def miniFun (f : Line) (args : List Line) : ConfOut :=
  if f ∈ genconfTable ∨ f = nmDirbufsize then miniDefine f ((shSplit [] (args.headD [])).headD [])
  else if f ∈ confValue then { defs := [(txMini ++ f, args.headD [])] }
  else if f ∈ confPlain then { defs := [(txMini ++ f, [])] }
  else if f = nmLongjmp then { defs := [(txMini ++ nmSetjmp, [])] }
  else if f ∈ confBare then { defs := [(f, [])] }
  else if f = nmDefine then miniDefine (args.headD []) ((args.drop 1).headD [])
  else { unknown := [txMini ++ f] }

/-- compile, COMPILE (scripts/genconfig.sh:26, 32). -/
def confCompile : List Line := 
  [nb [99, 111, 109, 112, 105, 108, 101],
   nb [67, 79, 77, 80, 73, 76, 69]]
/-- OS, ARCH (scripts/genconfig.sh:78, 74): the argument is the value of MINILIB_OS, MINILIB_ARCH. -/
def confTarget : List Line := 
  [nb [79, 83],
   nb [65, 82, 67, 72]]
def txMinilib : Line := nb [77, 73, 78, 73, 76, 73, 66, 95]
/-- define, DEFINE (scripts/genconfig.sh:176, 182): `#define $1 "$*"` with the rest of the words. -/
def confDefine : List Line := 
  [nb [100, 101, 102, 105, 110, 101],
   nb [68, 69, 70, 73, 78, 69]]
/-- OPTIMIZE, globals_on_stack, globalregister (scripts/genconfig.sh:90, 168, 13). -/
def nmOptimize : Line := nb [79, 80, 84, 73, 77, 73, 90, 69]
def nmStack : Line := nb [103, 108, 111, 98, 97, 108, 115, 95, 111, 110, 95, 115, 116, 97, 99, 107]
def nmRegister : Line := nb [103, 108, 111, 98, 97, 108, 114, 101, 103, 105, 115, 116, 101, 114]
/-- `"r15"`. -/
def txR15 : Line := nb [34, 114, 49, 53, 34]
/-- The commands that print nothing (scripts/genconfig.sh:9, 37, 57-73, 97-107, 116-146, 185): they set variables of minimake, or do nothing (ifdef). -/
def confSilent : List Line := 
  [nb [105, 102, 100, 101, 102],
   nb [86, 69, 82, 66, 79, 83, 69],
   nb [76, 68, 83, 67, 82, 73, 80, 84],
   nb [80, 73, 67, 70, 76, 65, 71],
   nb [115, 104, 114, 105, 110, 107, 101, 108, 102],
   nb [83, 72, 82, 73, 78, 75, 69, 76, 70],
   nb [66, 73, 78, 65, 82, 89],
   nb [83, 79, 85, 82, 67, 69, 83],
   nb [68, 85, 77, 77, 89, 72, 69, 65, 68, 69, 82],
   nb [79, 80, 84, 70, 76, 65, 71],
   nb [83, 84, 82, 73, 80, 70, 76, 65, 71],
   nb [68, 69, 66, 85, 71],
   nb [70, 85, 76, 76, 68, 69, 66, 85, 71],
   nb [101, 109, 98, 101, 100]]

/-- The name behind `mini_`. -/
def miniName (c : Line) : Option Line := if txMini <+: c then some (c.drop txMini.length) else none

/-- One line of a configuration, split into words by the shell: scripts/genconfig.sh. -/
def confCmd : List Line → ConfOut
  | [] => {}
  | c :: args =>
    if c ∈ confCompile then (compileWords args).foldr (fun f o => (miniFun f []).append o) {}
    else match miniName c with
      | some f => miniFun f args
      | none =>
        if c ∈ confTarget then { defs := [(txMinilib ++ c, args.headD [])] }
        else if c ∈ confDefine then { defs := [(args.headD [], 34#8 :: shEcho (args.drop 1) ++ [34#8])] }
        else if c ∈ confBare then { defs := [(c, [])] }
        else if c = nmOptimize ∨ c = nmStack then { defs := [(txMini ++ c, [])] }
        else if c = nmRegister then { defs := [(txMini ++ c, if args.headD [] = [] then txR15 else args.headD [])] }
        else if c ∈ confSilent then {}
        else { unknown := [c] }

/-- A configuration: `source` of the file in `dumpconfig` (minimake:855-873).  Unknown commands are reported, the rest is read on (minimake:864). -/
def confFile (cmds : List (List Line)) : ConfOut := cmds.foldr (fun c o => (confCmd c).append o) {}

end Minilib

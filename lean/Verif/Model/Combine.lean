import Verif.Model.Template
/-
The script that makes one file of a source and everything it includes (Makefile:190): /repo/scripts/combinesources.pl.
-/

set_option autoImplicit false

namespace Minilib

/-- `#include`. -/
def txInclude : Line := [35#8, 105#8, 110#8, 99#8, 108#8, 117#8, 100#8, 101#8]

/-- The text between the last two quotes, for a text read from its end. -/
def lastQuoted (rev : Line) : Option Line :=
  match rev.dropWhile (· ≠ 34#8) with
  | [] => none
  | _ :: r => if 34#8 ∈ r then some (r.takeWhile (· ≠ 34#8)).reverse else none

/-- The text between the last `<` that has a `>` behind it and the last `>`, for a text read from its end. -/
def lastAngled (rev : Line) : Option Line :=
  match rev.dropWhile (· ≠ 62#8) with
  | [] => none
  | _ :: r => if 60#8 ∈ r then some (r.takeWhile (· ≠ 60#8)).reverse else none

/-- scripts/combinesources.pl:72: `/^#include.*\"(.*)\"/` or `/^#include.*\<(.*)>/`. -/
def includeName (l : Line) : Option Line :=
  if begins txInclude l then
    match lastQuoted (l.drop 8).reverse with
    | some m => some m
    | none => lastAngled (l.drop 8).reverse
  else none

/-- The names of scripts/combinesources.pl:49, as bytes. -/
def listedNames : List Line :=
  ["minilib.h", "syscall_stubs.h", "syscall.h", "timeval.h", "msprintf.c", "mfprintf.c", "exit.h"].map
    (fun s => s.toList.map (fun c => BitVec.ofNat 8 c.toNat))

/-- The pattern `f` matches at the beginning of the text: a `.` stands for any character, all others for themselves (simplified: other
characters special in patterns are not treated). -/
def matchesAt : Line → Line → Bool
  | [], _ => true
  | _ :: _, [] => false
  | x :: f, y :: t => (x = 46#8 || x = y) && matchesAt f t

/-- The pattern `f` matches somewhere in the text. -/
def matchesIn (f : Line) : Line → Bool
  | [] => matchesAt f []
  | y :: t => matchesAt f (y :: t) || matchesIn f t

/-- scripts/combinesources.pl:49: one of the names matches the pattern `f`. -/
def special (f : Line) : Bool := listedNames.any (matchesIn f)

/-- `%included`, `$recursion`, and what was printed. -/
structure Slurp where
  included : List Line
  recursion : Nat
  out : List Line

/-- scripts/combinesources.pl:22-67, the beginning of `slurpfile( f )`: the lines of the file to go through, if there are any.  `fs` is what `open`
finds under the name, or under one of the directories (lines 60-67). -/
def slurpEnter (fs : Line → Option (List Line)) (f : Line) (s : Slurp) : Slurp × Option (List Line) :=
  if f ∈ s.included then ({ s with recursion := s.recursion + 1 }, none)
  else if s.recursion + 1 > 2 ∧ special f = true then (s, none)
  else ({ s with recursion := s.recursion + 1, included := f :: s.included }, fs f)

/-- scripts/combinesources.pl:70-85: the loop over the lines, with the calls still running on the stack. -/
def slurpRun (fs : Line → Option (List Line)) (stack : List (List Line)) (s : Slurp) : Res Slurp :=
  match stack with
  | [] => .ok s
  | [] :: st => slurpRun fs st { s with recursion := s.recursion - 1 }
  | (l :: ls) :: st =>
    match includeName l with
    | none => slurpRun fs (ls :: st) { s with out := s.out ++ [l] }
    | some m =>
      if m = [] ∨ m = [48#8] then slurpRun fs (ls :: st) s
      else
        match (slurpEnter fs m s).2 with
        | none => slurpRun fs (ls :: st) (slurpEnter fs m s).1
        | some new => slurpRun fs (new :: ls :: st) (slurpEnter fs m s).1
partial_fixpoint

/-- scripts/combinesources.pl:128-137: the whole script for a file. -/
def combine (fs : Line → Option (List Line)) (f : Line) : Res Slurp :=
  match (slurpEnter fs f ⟨[], 0, []⟩).2 with
  | none => .ok (slurpEnter fs f ⟨[], 0, []⟩).1
  | some ls => slurpRun fs [ls] (slurpEnter fs f ⟨[], 0, []⟩).1

end Minilib

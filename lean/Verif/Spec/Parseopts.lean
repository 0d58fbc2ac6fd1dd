import Verif.C.Mem
/-
The options in an argument vector, as PARSEOPTS_short documents them.
-/

set_option autoImplicit false

namespace Spec

/-- The option characters of a word. -/
def optChars : List (BitVec 8) → List (BitVec 8)
  | 45#8 :: w => w
  | _ => []

/-- All option characters. -/
def allOptChars (words : List (List (BitVec 8))) : List (BitVec 8) := words.flatMap optChars

/-- The number of a letter, a is 0. -/
def letterNo (c : BitVec 8) : Int := c.toInt - 97

/-- Options that are not in the list of letters. -/
def unknownOpts (letters : List Nat) (words : List (List (BitVec 8))) : List (BitVec 8) :=
  (allOptChars words).filter fun c => ¬ ∃ l ∈ letters, (l : Int) = letterNo c

/-- Does a word start with a dash? -/
def isOptWord (w : List (BitVec 8)) : Bool := w.head? = some 45#8

/-- The number of words up to the last that starts with a dash. -/
def behindLast : List (List (BitVec 8)) → Nat
  | [] => 0
  | w :: ws => if ws.any isOptWord then behindLast ws + 1 else if isOptWord w then 1 else 0

/-- The number of the first word without a dash. -/
def firstRegular (words : List (List (BitVec 8))) : Nat := (words.takeWhile isOptWord).length

end Spec

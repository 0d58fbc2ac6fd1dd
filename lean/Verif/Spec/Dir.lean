import Verif.Model.Dir
/-
Specification of directory streams: a list of records and a position in it.
-/

set_option autoImplicit false

namespace Spec
open Minilib

inductive DirOp where
  | read
  | tell
  | seek (i : Nat)
  | rewind

inductive DirAns where
  | entry (r : Option (List Byte))
  | pos (o : Int)
  | nothing
deriving DecidableEq

/-- One operation at position `c`; `ck i` is the number that stands for position `i`. -/
def dirStep (es : List (List Byte)) (ck : Nat → Int) (c : Nat) : DirOp → Nat × DirAns
  | .read => (min (c + 1) es.length, .entry es[c]?)
  | .tell => (c, .pos (ck c))
  | .seek i => (i, .nothing)
  | .rewind => (0, .nothing)

def dirRun (es : List (List Byte)) (ck : Nat → Int) : Nat → List DirOp → List DirAns
  | _, [] => []
  | c, op :: ops => (dirStep es ck c op).2 :: dirRun es ck (dirStep es ck c op).1 ops

/-- The records carry their length and the number of the next position; the numbers are different, and that of the
beginning is 0. -/
structure GoodDir (K : DirK) : Prop where
  reclen : ∀ (i : Nat) (r : List Byte), K.es[i]? = some r → le16 r 16 = some r.length
  doff : ∀ (i : Nat) (r : List Byte), K.es[i]? = some r → le64 r 8 = some (K.ck (i + 1))
  start : K.ck 0 = 0
  inj : ∀ i j : Nat, i ≤ K.es.length → j ≤ K.es.length → K.ck i = K.ck j → i = j

end Spec

import Verif.Model.Streams
/-
What a stream delivers, as a list of bytes.
-/

set_option autoImplicit false

namespace Spec
open Minilib

/-- The byte pushed back, if any (0 is no byte). -/
def pushed (ung : Bool) (cell : BitVec 32) : List Byte :=
  if ung = true ∧ cell.extractLsb' 24 8 ≠ 0#8 then [cell.extractLsb' 24 8] else []

/-- Everything a stream will deliver: the byte pushed back, then the data of the descriptor. -/
def avail (ung : Bool) (F : Stream) : List Byte := pushed ung F.cell ++ F.input.data

/-- The kernel reports no errors on reading. -/
def NoErr (K : RKernel) : Prop := ∀ c n, 0 ≤ K c n

/-- A line: up to and including the first newline, up to the first NUL, and at most `n` bytes. -/
def lineOf : Nat → List Byte → List Byte
  | 0, _ => []
  | _ + 1, [] => []
  | n + 1, b :: d => if b = 0#8 then [] else if b = 10#8 then [b] else b :: lineOf n d

/-- The rest after a line: a NUL that ended it is dropped, too. -/
def afterLine : Nat → List Byte → List Byte
  | 0, d => d
  | _ + 1, [] => []
  | n + 1, b :: d => if b = 0#8 then d else if b = 10#8 then d else afterLine n d

/-- The descriptor and the flags of a stream. -/
def low24 (cell : BitVec 32) : BitVec 24 := cell.setWidth 24

end Spec

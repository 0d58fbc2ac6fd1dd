import Verif.Model.FileCursor
/-
A file with a cursor, as ISO C describes a stream: what reading, writing and positioning do.
-/

set_option autoImplicit false

namespace Spec
open Minilib

/-- Memory, contents of the file, position, and the character pushed back. -/
structure Cursor where
  mem : Mem
  data : List Byte
  pos : Nat
  push : Option Byte

/-- The bytes in memory at `p`. -/
def bytesAt (m : Mem) (p n : Nat) : List Byte := (List.range n).map (fun i => (m (p + i)).getD 0#8)

/-- The byte of the file at `i` after `l` was written at `pos`. -/
def written (data : List Byte) (pos : Nat) (l : List Byte) (i : Nat) : Option Byte :=
  if pos ≤ i ∧ i < pos + l.length then l[i - pos]?
  else if i < data.length then data[i]?
  else if l ≠ [] ∧ i < pos then some 0#8
  else none

/-- Where the program is in the file: a character pushed back counts as not yet read. -/
def Cursor.here (c : Cursor) : Int := c.pos - c.push.toList.length

/-- The position a call of fseek asks for. -/
def Cursor.target (c : Cursor) (off whence : Int) : Int :=
  (if whence = 0 then 0 else if whence = 1 then c.here else c.data.length) + off

/-- Moving: the character pushed back is forgotten. -/
def Cursor.goto (c : Cursor) (x : Int) : Cursor := { c with pos := x.toNat, push := none }

/-- One call: new state and answer.  `eof` is the answer of `getc` at the end, `moved` the answer of a positioning that worked. -/
inductive CursorStep (eof : Int) (moved : Int → Int) : Cursor → FCall → Cursor → Int → Prop where
  | pushed {c b} : c.push = some b → CursorStep eof moved c .getc { c with push := none } b.toNat
  | byte {c b} : c.push = none → c.data[c.pos]? = some b → CursorStep eof moved c .getc { c with pos := c.pos + 1 } b.toNat
  | eof {c} : c.push = none → c.data.length ≤ c.pos → CursorStep eof moved c .getc c eof
  | unget {c b} : CursorStep eof moved c (.unget b) { c with push := some b } b.toNat
  | read {c p size n k l} : c.push.toList ++ c.data.drop c.pos = l → k = min (n * size) l.length →
      CursorStep eof moved c (.read p size n)
        { c with mem := c.mem.write p (l.take k), pos := c.pos + (k - c.push.toList.length), push := if k = 0 then c.push else none } (k / size : Nat)
  | write {c p size n d} : (∀ i, d[i]? = written c.data c.pos (bytesAt c.mem p (n * size)) i) →
      CursorStep eof moved c (.write p size n) { c with data := d, pos := c.pos + n * size } n
  | tell {c} : CursorStep eof moved c .tell c c.here
  | seek {c off w} : CursorStep eof moved c (.seek off w) (c.goto (c.target off w)) (moved (c.target off w))
  | setpos {c x} : CursorStep eof moved c (.setpos x) (c.goto x) (moved x)
  | rewind {c} : CursorStep eof moved c .rewind (c.goto 0) 0

/-- Calls with a meaning: buffers in memory, items with a size, an existing origin, a position that is not negative; a character of ASCII, not
NUL, is pushed back when none is there yet. -/
def Meant (c : Cursor) : FCall → Prop
  | .getc | .rewind | .tell => True
  | .unget b => 0 < b.toNat ∧ b.toNat < 128 ∧ c.push = none
  | .read p size n => 0 < size ∧ c.mem.Mapped p (n * size)
  | .write p size n => 0 < size ∧ c.mem.Mapped p (n * size)
  | .seek off w => (w = 0 ∨ w = 1 ∨ w = 2) ∧ 0 ≤ c.target off w
  | .setpos x => 0 ≤ x

/-- A program: every call does what `CursorStep` says. -/
inductive CursorSteps (eof : Int) (moved : Int → Int) (ok : Cursor → FCall → Prop) : Cursor → List FCall → Cursor → List Int → Prop where
  | nil {c} : CursorSteps eof moved ok c [] c []
  | cons {c f c' a fs c'' as} : ok c f → CursorStep eof moved c f c' a → CursorSteps eof moved ok c' fs c'' as → CursorSteps eof moved ok c (f :: fs) c'' (a :: as)

/-- The stream is the cursor. -/
def Cursor.Is (c : Cursor) (s : FileStream) : Prop :=
  s.mem = c.mem ∧ s.data = c.data ∧ s.pos = c.pos ∧ (∀ b, c.push = some b → s.cell.extractLsb' 24 8 = b ∧ 0 < b.toNat ∧ b.toNat < 128) ∧
  (c.push = none → s.cell.extractLsb' 24 8 = 0#8)

end Spec

import Verif.Spec.Num
import Verif.Spec.Double
import Verif.Model.Printf
/-
The format language of printf, as a grammar, independent of the loop that interprets it.

A format is a list of items.  A conversion is written `%`, then modifier chunks, then a last chunk;
every chunk is an optional flag '0', a number and a character.  The character of a modifier chunk
is `l`, `'` or anything that has no meaning; the character of the last chunk is the conversion.
A chunk with the character `(` is followed by a number and `)`: the group size for `%b`.
-/

set_option autoImplicit false

namespace Spec
open Minilib

/-- A flag '0' (or none), a number (or none), and a character. -/
structure Chunk where
  zero : Bool
  digits : List Nat
  ch : Byte

/-- How a chunk is written. -/
def Chunk.text (c : Chunk) : List Byte :=
  (if c.zero then [48#8] else []) ++ c.digits.map (fun d => BitVec.ofNat 8 (48 + d)) ++ [c.ch]

/-- The digits are decimal digits, a number without the flag '0' starts with a non-zero digit, and
the character is not a digit. -/
def Chunk.Ok (c : Chunk) : Prop :=
  (∀ d ∈ c.digits, d < 10) ∧ (c.zero = false → c.digits.head? ≠ some 0) ∧ ∀ d, d < 10 → c.ch ≠ BitVec.ofNat 8 (48 + d)

/-- What is known about a conversion. -/
structure FmtFlags where
  width : Nat
  zero : Bool
  long : Bool
  sep : Bool
  groups : Nat

/-- No modifier seen. -/
def FmtFlags.none : FmtFlags := ⟨0, false, false, false, 0⟩

/-- The effect of the flag and the number of a chunk. -/
def FmtFlags.num (fl : FmtFlags) (c : Chunk) : FmtFlags :=
  { fl with width := c.digits.foldl (fun w d => w * 10 + d) fl.width, zero := fl.zero || c.zero }

/-- The effect of a modifier chunk. -/
def FmtFlags.chunk (fl : FmtFlags) (c : Chunk) : FmtFlags :=
  { fl.num c with long := fl.long || decide (c.ch = 108#8), sep := fl.sep || decide (c.ch = 39#8) }

/-- Characters that may stand in a modifier chunk: neither the end of the format nor one of
`% u d f x X o b ( s c`. -/
def modChar (c : Byte) : Prop :=
  c ∉ [0#8, 37#8, 117#8, 100#8, 102#8, 120#8, 88#8, 111#8, 98#8, 40#8, 115#8, 99#8]

instance (c : Chunk) : Decidable c.Ok := inferInstanceAs (Decidable (_ ∧ _ ∧ _))
instance (c : Byte) : Decidable (modChar c) := inferInstanceAs (Decidable (¬ _))

/-- A modifier: a chunk, or a chunk with `(`, followed by a number (or none) and `)`. -/
inductive FmtMod where
  | chunk (c : Chunk)
  | group (zero : Bool) (digits : List Nat) (g : List Nat)

/-- How a modifier is written. -/
def FmtMod.text : FmtMod → List Byte
  | .chunk c => c.text
  | .group z ds g => Chunk.text ⟨z, ds, 40#8⟩ ++ (g.map (fun d => BitVec.ofNat 8 (48 + d)) ++ [41#8])

/-- The modifier is well formed; a group size has at most ten digits and is an `int`. -/
def FmtMod.Ok : FmtMod → Prop
  | .chunk c => c.Ok ∧ modChar c.ch
  | .group z ds g => Chunk.Ok ⟨z, ds, 40#8⟩ ∧ (∀ d ∈ g, d < 10) ∧ g.length ≤ 10 ∧ valueOf 10 g ≤ 2147483647

instance (c : FmtMod) : Decidable c.Ok := by
  cases c <;> simp only [FmtMod.Ok] <;> infer_instance

/-- The effect of a modifier. -/
def FmtFlags.mod (fl : FmtFlags) : FmtMod → FmtFlags
  | .chunk c => fl.chunk c
  | .group z ds g => { fl.num ⟨z, ds, 40#8⟩ with groups := if g = [] then fl.groups else valueOf 10 g }

/-- A conversion with its argument. -/
inductive Conv where
  | pct
  | dec (v : BitVec 32)
  | udec (v : BitVec 32)
  | ldec (v : BitVec 64)
  | uldec (v : BitVec 64)
  | hex (v : BitVec 32)
  | HEX (v : BitVec 32)
  | oct (v : BitVec 32)
  | bin (v : BitVec 32)
  | str (p : Nat) (s : List Byte)
  | chr (v : BitVec 32)
  | dbl (d : Int)

/-- The conversion character. -/
def Conv.char : Conv → Byte
  | .pct => 37#8
  | .dec _ => 100#8
  | .udec _ => 117#8
  | .ldec _ => 100#8
  | .uldec _ => 117#8
  | .hex _ => 120#8
  | .HEX _ => 88#8
  | .oct _ => 111#8
  | .bin _ => 98#8
  | .str _ _ => 115#8
  | .chr _ => 99#8
  | .dbl _ => 102#8

/-- The argument a conversion takes. -/
def Conv.args : Conv → List PfArg
  | .pct => []
  | .dec v => [.int v]
  | .udec v => [.int v]
  | .ldec v => [.long v]
  | .uldec v => [.long v]
  | .hex v => [.int v]
  | .HEX v => [.int v]
  | .oct v => [.int v]
  | .bin v => [.int v]
  | .str p _ => [.str p]
  | .chr v => [.int v]
  | .dbl d => [.dbl d]

/-- Whether the modifier `l` is as the argument needs it. -/
def Conv.long : Conv → Bool → Prop
  | .dec _, l => l = false
  | .udec _, l => l = false
  | .ldec _, l => l = true
  | .uldec _, l => l = true
  | _, _ => True

/-- An element of a format: a character standing for itself, or a conversion: modifiers, the
flag '0' and number of the last chunk, and the conversion. -/
inductive Item where
  | lit (c : Byte)
  | conv (mods : List FmtMod) (zero : Bool) (digits : List Nat) (k : Conv)

/-- How an item is written. -/
def Item.text : Item → List Byte
  | .lit c => [c]
  | .conv mods z ds k => 37#8 :: (mods.flatMap FmtMod.text ++ Chunk.text ⟨z, ds, k.char⟩)

/-- The arguments an item takes. -/
def Item.args : Item → List PfArg
  | .lit _ => []
  | .conv _ _ _ k => k.args

/-- The modifiers in effect for a conversion. -/
def convFlags (mods : List FmtMod) (z : Bool) (ds : List Nat) (k : Conv) : FmtFlags :=
  (mods.foldl FmtFlags.mod FmtFlags.none).num ⟨z, ds, k.char⟩

/-- The item is well formed, and its width is an `int`. -/
def Item.Ok : Item → Prop
  | .lit c => c ≠ 0#8 ∧ c ≠ 37#8
  | .conv mods z ds k =>
    (∀ c ∈ mods, c.Ok) ∧ Chunk.Ok ⟨z, ds, k.char⟩ ∧ k.long (convFlags mods z ds k).long ∧
      (convFlags mods z ds k).width ≤ 2147483647

/-- The string argument of the item is in memory, outside of `[buf, buf+size)`, at a non-null address,
and short enough for `strlen` (which counts in an `int`). -/
def Item.StrOk (m : Mem) (buf size : Nat) : Item → Prop
  | .conv _ _ _ (.str p s) => m.IsStr p s ∧ (p + s.length < buf ∨ buf + size ≤ p) ∧ p ≠ 0 ∧ s.length < 2147483648
  | _ => True

/-- The format text of a list of items. -/
def fmtText (its : List Item) : List Byte := its.flatMap Item.text

/-- The arguments of a list of items. -/
def fmtArgs (its : List Item) : List PfArg := its.flatMap Item.args

/-- What a call with the format `its` at `fmt` needs: a writable buffer, the format and the string
arguments outside of the buffer, the items well formed. -/
structure PfCall (m : Mem) (buf size fmt : Nat) (its : List Item) : Prop where
  size_pos : 0 < size
  mapped : m.Mapped buf size
  items : ∀ it ∈ its, it.Ok ∧ it.StrOk m buf size
  format : m.Holds fmt (fmtText its ++ [0#8])
  disjoint : fmt + (fmtText its).length < buf ∨ buf + size ≤ fmt

/-- The digits of %b: those of the number, and zeros up to the width (a width above 32 is ignored). -/
def binCount (fl : FmtFlags) (v : BitVec 32) : Nat :=
  if fl.width ≤ 32 then max (numeral 2 v.toNat).length fl.width else (numeral 2 v.toNat).length

/-- The group size of %b: 32 if none is given. -/
def binGroup (fl : FmtFlags) : Nat := if fl.groups = 0 then 32 else fl.groups

/-- The conversions that stay in the buffer: not the smallest negative number, no grouped negative number
of ten digits, no binary number of more than 32 characters with the blanks, no string extended by blanks, no
double whose whole part is no `int` or with a width that is not 9. -/
def SafeItem : Item → Prop
  | .conv mods z ds (.dec v) => v.toInt ≠ -2147483648 ∧
      ((convFlags mods z ds (.dec v)).sep = true →
        0 ≤ v.toInt ∨ (-1000000000 < v.toInt ∧ (convFlags mods z ds (.dec v)).width ≤ 9))
  | .conv _ _ _ (.ldec v) => v.toInt ≠ -9223372036854775808
  | .conv _ _ _ (.oct v) => v.toInt ≠ -2147483648
  | .conv mods z ds (.bin v) => binCount (convFlags mods z ds (.bin v)) v +
      binCount (convFlags mods z ds (.bin v)) v / binGroup (convFlags mods z ds (.bin v)) + 1 ≤ 32
  | .conv mods z ds (.str p s) => (convFlags mods z ds (.str p s)).width ≤ s.length
  | .conv mods z ds (.dbl d) => dblWhole d ≤ 2147483647 ∧
      ((convFlags mods z ds (.dbl d)).width = 0 ∨ (convFlags mods z ds (.dbl d)).width = 9)
  | _ => True

/-- The room that may be left over when vsnprintf gives up: the checks of the conversions are for the longest number. -/
def Item.spare : Item → Nat
  | .conv _ _ _ (.bin _) => 31
  | _ => 27

/-- The room that may be left over when vsnprintf gives up on a format: 31 bytes if it has a %b, 27 otherwise. -/
def spare (its : List Item) : Nat := its.foldr (fun it n => max it.spare n) 27

/-! ### The text of a format -/

/-- A number with a sign: the sign in front of the padding zeros, or the padding blanks in front of
the sign. -/
def padNum (w : Nat) (zero : Bool) (sign digits : List Byte) : List Byte :=
  if zero then sign ++ List.replicate (w - (sign.length + digits.length)) 48#8 ++ digits
  else List.replicate (w - (sign.length + digits.length)) 32#8 ++ sign ++ digits

/-- The sign of a number. -/
def signOf (v : Int) : List Byte := if v < 0 then [45#8] else []

/-- The separator asked for. -/
def sepOf (fl : FmtFlags) : Byte := if fl.sep then 46#8 else 0#8

/-- Digits in groups of `g`, counted from the right, with blanks in between. -/
def blankGroups (g : Nat) (l : List Byte) : List Byte :=
  l.zipIdx.flatMap (fun x => if x.2 ≠ 0 ∧ (l.length - x.2) % g = 0 then [32#8, x.1] else [x.1])

/-- A double in millionths, rounded to the nearest number, to the even one of two. -/
def millionths (d : Int) : Nat :=
  let n := d.natAbs * 1000000
  let r := 2 * (n % one)
  if r < one ∨ (r = one ∧ n / one % 2 = 0) then n / one else n / one + 1

/-- The text of a conversion, as printf defines it. -/
def Conv.render (fl : FmtFlags) : Conv → List Byte
  | .pct => [37#8]
  | .dec v => padNum fl.width fl.zero (signOf v.toInt) (group (sepOf fl) (numeral 10 v.toInt.natAbs))
  | .udec v => padNum fl.width fl.zero [] (group (sepOf fl) (numeral 10 v.toNat))
  | .ldec v => padNum fl.width fl.zero (signOf v.toInt) (group (sepOf fl) (numeral 10 v.toInt.natAbs))
  | .uldec v => padNum fl.width fl.zero [] (group (sepOf fl) (numeral 10 v.toNat))
  | .hex v => padNum fl.width fl.zero [] (numeral 16 v.toNat)
  | .HEX v => padNum fl.width fl.zero [] (numeralCaps 16 v.toNat)
  | .oct v => padNum fl.width fl.zero [] (numeral 8 v.toNat)
  | .bin v => padNum fl.width fl.zero [] (blankGroups fl.groups (numeral 2 v.toNat))
  | .str _ s => padNum fl.width false [] s
  | .chr v => padNum fl.width false [] [v.setWidth 8]
  | .dbl d => padNum fl.width fl.zero (signOf d)
      (numeral 10 (millionths d / 1000000) ++ [46#8] ++ padTo 6 48#8 (numeral 10 (millionths d % 1000000)))

/-- The text of an item. -/
def Item.render : Item → List Byte
  | .lit c => [c]
  | .conv mods z ds k => k.render (convFlags mods z ds k)

/-- The text of a format. -/
def render (its : List Item) : List Byte := its.flatMap Item.render

end Spec

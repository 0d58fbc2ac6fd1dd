import Verif.C.Mem
/-
The pattern language of `match`, after the documentation (src/match/match.c:4-80, src/match/match_ext.c for the letters behind a
backslash): its syntax, and which texts a pattern describes.
-/

set_option autoImplicit false

namespace Spec

abbrev Txt := List (BitVec 8)

/-- Sets of characters. -/
inductive CClass where
  | lit (b : BitVec 8)
  | any
  | set (l : Txt)
  | space
  | newline
  | digit
  | nondigit
  | nonspace
  | word
  | nonword
deriving DecidableEq

def isSpaceChar (b : BitVec 8) : Bool := b = 32#8 || b = 9#8 || b = 10#8 || b = 12#8 || b = 13#8 || b = 11#8

def CClass.has : CClass → BitVec 8 → Bool
  | .lit c, b => c = b
  | .any, _ => true
  | .set l, b => l.contains b
  | .space, b => isSpaceChar b
  | .newline, b => b = 10#8
  | .digit, b => 48 ≤ b.toNat && b.toNat ≤ 57
  | .nondigit, b => !(48 ≤ b.toNat && b.toNat ≤ 57)
  | .nonspace, b => !isSpaceChar b
  | .word, b => (32 ≤ b.toNat && b.toNat ≤ 126) || 160 ≤ b.toNat
  | .nonword, b => !((32 ≤ b.toNat && b.toNat ≤ 126) || 160 ≤ b.toNat)

/-- The parts of a pattern: one character in (or, negated, not in) a class; `n` or more characters, possibly to be extracted;
'#', a space or the end of the text; '$', the end of the text; '@', the beginning of the text or a newline. -/
inductive Tok where
  | one (neg : Bool) (c : CClass)
  | rep (n : Nat) (cap : Bool)
  | gap
  | eot
  | bol
deriving DecidableEq

/-- ! ? [ # @ % + * \ $ -/
def special : Txt := [33#8, 63#8, 91#8, 35#8, 64#8, 37#8, 43#8, 42#8, 92#8, 36#8]

/-- d D s S w W -/
def escLetters : Txt := [100#8, 68#8, 115#8, 83#8, 119#8, 87#8]

/-- How a class is written. -/
inductive SpellsC : CClass → Txt → Prop
  | plain {b : BitVec 8} : b ≠ 0#8 → b ∉ special → SpellsC (.lit b) [b]
  | esc {b : BitVec 8} : b ≠ 0#8 → b ∉ escLetters → SpellsC (.lit b) [92#8, b]
  | any : SpellsC .any [63#8]
  | set {l : Txt} : 0#8 ∉ l → 93#8 ∉ l → SpellsC (.set l) (91#8 :: (l ++ [93#8]))
  | digit : SpellsC .digit [92#8, 100#8]
  | nondigit : SpellsC .nondigit [92#8, 68#8]
  | space : SpellsC .space [92#8, 115#8]
  | nonspace : SpellsC .nonspace [92#8, 83#8]
  | word : SpellsC .word [92#8, 119#8]
  | nonword : SpellsC .nonword [92#8, 87#8]

/-- How a part of a pattern is written. -/
inductive Spells : Tok → Txt → Prop
  | one {c : CClass} {w : Txt} : SpellsC c w → Spells (.one false c) w
  | neg {c : CClass} {w : Txt} : SpellsC c w → Spells (.one true c) (33#8 :: w)
  | negGap : Spells (.one true .space) [33#8, 35#8]
  | negBol : Spells (.one true .newline) [33#8, 64#8]
  | star : Spells (.rep 0 false) [42#8]
  | plus : Spells (.rep 1 false) [43#8]
  | percent : Spells (.rep 1 true) [37#8]
  | gap : Spells .gap [35#8]
  | eot : Spells .eot [36#8]
  | bol : Spells .bol [64#8]

/-- How a pattern is written. -/
inductive Pattern : List Tok → Txt → Prop
  | nil : Pattern [] []
  | cons {t : Tok} {w : Txt} {ts : List Tok} {re : Txt} : Spells t w → Pattern ts re → Pattern (t :: ts) (w ++ re)

/-- The texts described by a pattern; `start` tells whether this is the beginning of the text. -/
def Matches : Bool → List Tok → Txt → Prop
  | _, [], s => s = []
  | _, .one neg c :: r, s => ∃ b t, s = b :: t ∧ c.has b ≠ neg ∧ Matches false r t
  | start, .rep n _ :: r, s => ∃ u v, s = u ++ v ∧ n ≤ u.length ∧ Matches (start && u.isEmpty) r v
  | start, .gap :: r, s => (∃ b t, s = b :: t ∧ isSpaceChar b = true ∧ Matches false r t) ∨ (s = [] ∧ Matches start r [])
  | start, .eot :: r, s => s = [] ∧ Matches start r []
  | start, .bol :: r, s => (∃ t, s = 10#8 :: t ∧ Matches false r t) ∨ (start = true ∧ Matches start r s)

end Spec

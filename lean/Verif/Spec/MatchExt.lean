import Verif.Spec.Match
/-
The pattern language of `match_ext`, after the documentation (src/match/match_ext.c:1-190), without callbacks for single
characters and without counts: its syntax, which texts a pattern describes, and what the '%' stand for.
-/

set_option autoImplicit false

namespace Spec

/-- The parts of a pattern: one character in (or, negated, not in) a class; `n` or more characters, possibly to be reported
under a number; '#', a space or the end of the text; '$', the end of the text. -/
inductive ETok where
  | one (neg : Bool) (c : CClass)
  | rep (n : Nat) (cap : Option Nat)
  | gap
  | eot
deriving DecidableEq

/-- The characters which are special only here: '&', ',', '{' and '}'. -/
def extSpecial : Txt := [38#8, 44#8, 123#8, 125#8]

/-- How a part of a pattern is written. -/
inductive ESpells : ETok → Txt → Prop
  | one {c : CClass} {w : Txt} : SpellsC c w → w.headD 0#8 ∉ extSpecial → ESpells (.one false c) w
  | at_ : ESpells (.one false (.lit 64#8)) [64#8]
  | neg {c : CClass} {w : Txt} : SpellsC c w → w.headD 0#8 ∉ extSpecial → ESpells (.one true c) (33#8 :: w)
  | negGap : ESpells (.one true .space) [33#8, 35#8]
  | star : ESpells (.rep 0 none) [42#8]
  | plus : ESpells (.rep 1 none) [43#8]
  | percent : ESpells (.rep 1 (some 0)) [37#8]
  | number {k : Nat} : k ≤ 9 → ESpells (.rep 1 (some k)) [37#8, BitVec.ofNat 8 (48 + k)]
  | gap : ESpells .gap [35#8]
  | eot : ESpells .eot [36#8]

def isDigitChar (b : BitVec 8) : Bool := 48 ≤ b.toNat && b.toNat ≤ 57

/-- How a pattern is written; a ',' may stand in front of every part that is not negated, and must be there between a '%'
without a number and a digit. -/
inductive EPattern : List ETok → Txt → Prop
  | nil : EPattern [] []
  | cons {t : ETok} {w : Txt} {ts : List ETok} {re : Txt} : ESpells t w → (w = [37#8] → isDigitChar (re.headD 0#8) = false) →
      EPattern ts re → EPattern (t :: ts) (w ++ re)
  | sep {t : ETok} {w : Txt} {ts : List ETok} {re : Txt} : ESpells t w → w.headD 0#8 ≠ 33#8 →
      (w = [37#8] → isDigitChar (re.headD 0#8) = false) → EPattern ts re → EPattern (t :: ts) (44#8 :: (w ++ re))

/-- Patterns without the ','. -/
inductive EPlain : List ETok → Txt → Prop
  | nil : EPlain [] []
  | cons {t : ETok} {w : Txt} {ts : List ETok} {re : Txt} : ESpells t w → (w = [37#8] → isDigitChar (re.headD 0#8) = false) →
      EPlain ts re → EPlain (t :: ts) (w ++ re)

/-- The part without its number. -/
def ETok.plain : ETok → Tok
  | .one neg c => .one neg c
  | .rep n cap => .rep n cap.isSome
  | .gap => .gap
  | .eot => .eot

/-- The texts described by a pattern, with what the '%' stand for (number, position, length), from left to right; `off` is
the position of the text. -/
def Captures : Nat → List ETok → Txt → List (Nat × Nat × Nat) → Prop
  | _, [], s, cs => s = [] ∧ cs = []
  | off, .one neg c :: r, s, cs => ∃ b t, s = b :: t ∧ c.has b ≠ neg ∧ Captures (off + 1) r t cs
  | off, .rep n none :: r, s, cs => ∃ u v, s = u ++ v ∧ n ≤ u.length ∧ Captures (off + u.length) r v cs
  | off, .rep n (some k) :: r, s, cs => ∃ u v cs', s = u ++ v ∧ n ≤ u.length ∧ Captures (off + u.length) r v cs' ∧
      cs = (k, off, u.length) :: cs'
  | off, .gap :: r, s, cs => (∃ b t, s = b :: t ∧ isSpaceChar b = true ∧ Captures (off + 1) r t cs) ∨
      (s = [] ∧ Captures off r [] cs)
  | off, .eot :: r, s, cs => s = [] ∧ Captures off r [] cs

end Spec

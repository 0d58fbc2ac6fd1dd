import Verif.C.Mem
import Verif.Model.Bits
/-
Text matching: /repo/src/match/match.c.

The text and the pattern are in memory; the struct `text_match` that is filled in is a separate value (none for the NULL pointer).
`char` is signed.
-/

set_option autoImplicit false

namespace Minilib
open Mem

/-- include/globaldefs.h:72 `text_match`. -/
structure TextMatch where
  pos : Nat
  len : Int
deriving DecidableEq

/-- src/match/match.c:117-119 (the `for` loop behind '['): none when the ']' comes before the character, else where the loop stops. -/
def classFind (m : Mem) (t : Byte) (re : Nat) : Res (Option Nat) := do
  let c ← m.load re
  if c = 0#8 ∨ c = t then pure (some re)
  else if c = 93#8 then pure none
  else classFind m t (re + 1)
partial_fixpoint

/-- src/match/match.c:120-121: up to the ']'. -/
def classEnd (m : Mem) (re : Nat) : Res Nat := do
  let c ← m.load re
  if c = 0#8 ∨ c = 93#8 then pure re else classEnd m (re + 1)
partial_fixpoint

/-- src/match/match.c:152-153: the end of the text. -/
def textEnd (m : Mem) (text : Nat) : Res Nat := do
  let c ← m.load text
  if c = 0#8 then pure text else textEnd m (text + 1)
partial_fixpoint

/-- src/match/match.c:182-191, the lines `_MATCH`: does the escape accept the character?  none for other escapes.  The condition is not
in parentheses in the macro: in the lines for 'w' and 'W' the negation belongs to the first half of the condition only. -/
def escapeClass (neg : Bool) (c t : Byte) : Option Bool :=
  if c = 100#8 then some (neg ^^ isdigit (t.signExtend 32))
  else if c = 68#8 then some (neg ^^ !isdigit (t.signExtend 32))
  else if c = 115#8 then some (neg ^^ isspace (t.signExtend 32))
  else if c = 83#8 then some (neg ^^ !isspace (t.signExtend 32))
  else if c = 119#8 then some ((neg ^^ (decide (32 ≤ t.toInt) && decide (t.toInt ≤ 126))) || decide (160 ≤ t.toInt))
  else if c = 87#8 then some ((neg ^^ decide (t.toInt < 32)) || (decide (126 < t.toInt) && decide (t.toInt < 160)))
  else none

/-- src/match/match.c:203-212: the text is at its end. -/
def matchEnd (m : Mem) (re : Nat) : Res Nat := do
  let c ← m.load re
  let re := if c = 35#8 ∨ c = 36#8 then re + 1 else re
  let c ← m.load re
  if c = 0#8 then pure 1
  else if c = 42#8 then do
    let d ← m.load (re + 1)
    if d = 0#8 then pure 1 else pure 0
  else pure 0

/-- `neg ^ RE_MATCH` and `neg ^ RE_NOMATCH`. -/
def xorNeg (neg : Bool) (r : Nat) : Nat := (if neg then 1 else 0) ^^^ r

/-- src/match/match.c:154-157 and 171-176: the struct is filled in when there is a '%'; `text - matchpos` becomes an `int`. -/
def setMatch (st : Option TextMatch) (mp : Option Nat) (text : Nat) : Option TextMatch :=
  match mp with
  | none => st
  | some p => st.map fun _ => ⟨p, (BitVec.ofNat 32 (text - p)).toInt⟩

mutual
/-- src/match/match.c:96-102 `_match`: the first lines. -/
def match_ (m : Mem) (text re : Nat) (st : Option TextMatch) : Res (Nat × Option TextMatch) :=
  matchLoop m text re (st.map fun q => { q with len := 0 })
partial_fixpoint

/-- src/match/match.c:104-110 and 200-215: the loop over the text; `neg` and `matchpos` are 0 whenever it begins anew. -/
def matchLoop (m : Mem) (text re : Nat) (st : Option TextMatch) : Res (Nat × Option TextMatch) := do
  let t ← m.load text
  if t = 0#8 then do
    let r ← matchEnd m re
    pure (r, st)
  else do
    let c0 ← m.load re
    if c0 = 33#8 then do
      let c ← m.load (re + 1)
      matchStep m text (re + 1) st t c true
    else matchStep m text re st t c0 false
partial_fixpoint

/-- src/match/match.c:111-200: the `switch`; `t` is the character of the text, `c` that of the pattern. -/
def matchStep (m : Mem) (text re : Nat) (st : Option TextMatch) (t c : Byte) (neg : Bool) : Res (Nat × Option TextMatch) :=
  if c = 63#8 then (if neg then pure (0, st) else matchLoop m (text + 1) (re + 1) st)
  else if c = 91#8 then do
    let r ← classFind m t (re + 1)
    match r with
    | none => pure (xorNeg neg 0, st)
    | some re => do
      let re ← classEnd m re
      let d ← m.load re
      if d = 0#8 then pure (0, st)
      else if neg then pure (0, st)
      else matchLoop m (text + 1) (re + 1) st
  else if c = 35#8 then
    (if (neg ^^ isspace (t.signExtend 32)) then matchLoop m (text + 1) (re + 1) st else pure (0, st))
  else if c = 64#8 then
    (if (neg ^^ decide (t = 10#8)) then matchLoop m (text + 1) (re + 1) st else pure (0, st))
  else if c = 37#8 then do
    let t ← m.load (text + 1)
    if t = 0#8 then pure (xorNeg neg 0, st) else matchStar m (text + 1) (re + 1) st neg (some text)
  else if c = 43#8 then do
    let t ← m.load (text + 1)
    if t = 0#8 then pure (xorNeg neg 0, st) else matchStar m (text + 1) (re + 1) st neg none
  else if c = 42#8 then matchStar m text (re + 1) st neg none
  else if c = 92#8 then do
    let c ← m.load (re + 1)
    match escapeClass neg c t with
    | some true => matchLoop m (text + 1) (re + 2) st
    | some false => pure (0, st)
    | none =>
      if c = 0#8 then pure (0, st)
      else if (neg ^^ decide (c ≠ t)) then pure (0, st)
      else matchLoop m (text + 1) (re + 2) st
  else if c = 0#8 then pure (0, st)
  else if (neg ^^ decide (c ≠ t)) then pure (0, st)
  else matchLoop m (text + 1) (re + 1) st
partial_fixpoint

/-- src/match/match.c:149-160: '*' and what '%' and '+' have in common with it; `re` is behind the character, `mp` is `matchpos`. -/
def matchStar (m : Mem) (text re : Nat) (st : Option TextMatch) (neg : Bool) (mp : Option Nat) : Res (Nat × Option TextMatch) := do
  let d ← m.load re
  if d = 0#8 then do
    if mp.isSome ∧ st.isSome then do
      let e ← textEnd m text
      pure (xorNeg neg 1, setMatch st mp e)
    else pure (xorNeg neg 1, st)
  else starLoop m text re st neg mp
partial_fixpoint

/-- src/match/match.c:162-178: the rest of the pattern is tried at every character of the text. -/
def starLoop (m : Mem) (text re : Nat) (st : Option TextMatch) (neg : Bool) (mp : Option Nat) : Res (Nat × Option TextMatch) := do
  let r ← match_ m text re st
  if r.1 ≠ 0 then pure (xorNeg neg 1, setMatch r.2 mp text)
  else do
    let t ← m.load (text + 1)
    if t = 0#8 then do
      let c ← m.load re
      if c = 35#8 ∨ c = 36#8 then do
        let d ← m.load (re + 1)
        if d = 0#8 then pure (xorNeg neg 1, setMatch r.2 mp (text + 1)) else pure (xorNeg neg 0, r.2)
      else pure (xorNeg neg 0, r.2)
    else starLoop m (text + 1) re r.2 neg mp
partial_fixpoint
end

/-- src/match/match.c:83-93 `match`. -/
def «match» (m : Mem) (text re : Nat) (st : Option TextMatch) : Res (Nat × Option TextMatch) := do
  let c ← m.load re
  if c = 42#8 then do
    let d ← m.load (re + 1)
    if d = 64#8 then do
      let r ← match_ m text (re + 2) st
      if r.1 = 1 then pure r else match_ m text re r.2
    else match_ m text re st
  else if c = 64#8 then do
    let r ← match_ m text (re + 1) st
    if r.1 = 1 then pure r else match_ m text re r.2
  else match_ m text re st

end Minilib

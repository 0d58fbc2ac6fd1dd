import Verif.Model.Match
/-
The matching engine with callbacks: /repo/src/match/match_ext.c.

As in Model/Match the struct that is filled in is a value (none for NULL).  `pm` tells whether `p_match` is given; its calls
are recorded.  `pc` is `p_match_char`: number and position give the answer.  The callbacks change nothing in memory.
-/

set_option autoImplicit false

namespace Minilib
open Mem

/-- A call of `p_match`: number, position, length. -/
abbrev MCall := Nat × Nat × Int

/-- What `match_ext` gives: the value returned, the struct, the calls. -/
abbrev ExtOut := Nat × Option TextMatch × List MCall

/-- src/match/match_ext.c:209-212: the number behind '{' (the character at `re` is '{' or a digit). -/
def extNumber (m : Mem) (re : Nat) (count : Int) : Res (Nat × Int) := do
  let c ← m.load (re + 1)
  if isdigit (c.signExtend 32) then do
    let d ← ckInt (count * 10 + (c.toInt - 48))
    let count ← ckInt (count + d)
    extNumber m (re + 1) count
  else pure (re + 1, count)
partial_fixpoint

/-- src/match/match_ext.c:206-217: the count and a ',': where the part of the pattern begins, and the count. -/
def extCountOf (m : Mem) (re : Nat) : Res (Nat × Int) := do
  let c ← m.load re
  let re := if c = 125#8 then re + 1 else re
  let c ← m.load re
  let r ← (if c = 123#8 then extNumber m re 0 else pure (re, 1))
  let c ← m.load r.1
  if c = 44#8 then pure (r.1 + 1, r.2) else pure r

/-- src/match/match_ext.c:255-258: the digit behind '&' or '%': where the pattern goes on (at the last character), and the
number. -/
def extDigit (m : Mem) (re : Nat) (n : Nat) : Res (Nat × Nat) := do
  let c ← m.load (re + 1)
  if 48 ≤ c.toInt ∧ c.toInt ≤ 57 then pure (re + 1, (c.toInt - 48).toNat) else pure (re, n)

/-- src/match/match_ext.c:289-298 and 315-322: the callback and the struct for a '%'. -/
def extReport (pm : Bool) (n : Nat) (mp : Option Nat) (text : Nat) (st : Option TextMatch) (calls : List MCall) :
    Option TextMatch × List MCall :=
  match mp with
  | none => (st, calls)
  | some p => (setMatch st mp text, if pm then calls ++ [(n, p, (BitVec.ofNat 32 (text - p)).toInt)] else calls)

mutual
/-- src/match/match_ext.c:193-197 `match_ext`: the first lines. -/
def matchExt (m : Mem) (pm : Bool) (pc : Option (Nat → Nat → Int)) (text re : Nat) (st : Option TextMatch) (calls : List MCall) :
    Res ExtOut :=
  extLoop m pm pc text re 0 (st.map fun q => { q with len := 0 }) calls
partial_fixpoint

/-- src/match/match_ext.c:199-205 and 347-363: the loop over the text; `n` is `n_match`. -/
def extLoop (m : Mem) (pm : Bool) (pc : Option (Nat → Nat → Int)) (text re n : Nat) (st : Option TextMatch) (calls : List MCall) :
    Res ExtOut := do
  let t ← m.load text
  if t = 0#8 then do
    let r ← matchEnd m re
    pure (r, st, calls)
  else do
    let c ← m.load re
    let neg := decide (c = 33#8)
    let re := if neg then re + 1 else re
    let p ← extCountOf m re
    extCount m pm pc text p.1 p.1 p.2 neg n st calls
partial_fixpoint

/-- src/match/match_ext.c:218-220 and 345-347: the loop `while (count --> 0)`; the part of the pattern begins at `pos`, and
ended at `re` the last time. -/
def extCount (m : Mem) (pm : Bool) (pc : Option (Nat → Nat → Int)) (text pos re : Nat) (count : Int) (neg : Bool) (n : Nat)
    (st : Option TextMatch) (calls : List MCall) : Res ExtOut :=
  if 0 < count then do
    let t ← m.load text
    let c ← m.load pos
    extStep m pm pc text pos (count - 1) neg n st calls t c
  else extLoop m pm pc text (re + 1) n st calls
partial_fixpoint

/-- src/match/match_ext.c:221-344: the `switch`; `t` is the character of the text, `c` that of the pattern at `pos`. -/
def extStep (m : Mem) (pm : Bool) (pc : Option (Nat → Nat → Int)) (text pos : Nat) (count : Int) (neg : Bool) (n : Nat)
    (st : Option TextMatch) (calls : List MCall) (t c : Byte) : Res ExtOut :=
  if c = 63#8 then (if neg then pure (0, st, calls) else extCount m pm pc (text + 1) pos pos count neg n st calls)
  else if c = 91#8 then do
    let r ← classFind m t (pos + 1)
    match r with
    | none => pure (xorNeg neg 0, st, calls)
    | some re => do
      let re ← classEnd m re
      let d ← m.load re
      if d = 0#8 then pure (0, st, calls)
      else if neg then pure (0, st, calls)
      else extCount m pm pc (text + 1) pos re count neg n st calls
  else if c = 35#8 then
    (if (neg ^^ isspace (t.signExtend 32)) then extCount m pm pc (text + 1) pos pos count neg n st calls else pure (0, st, calls))
  else if c = 38#8 then do
    let d ← extDigit m pos n
    match pc with
    | none => if neg then pure (0, st, calls) else extCount m pm pc (text + 1) pos d.1 count neg d.2 st calls
    | some f =>
      let v := f d.2 text
      if v = 0 then (if neg then extCount m pm pc (text + 1) pos d.1 count neg d.2 st calls else pure (0, st, calls))
      else if v = -1 then pure (xorNeg neg 1, st, calls)
      else if neg then pure (0, st, calls)
      else if (text : Int) + v < 0 then .ub
      else extCount m pm pc (((text : Int) + v).toNat + 1) pos d.1 count neg d.2 st calls
  else if c = 37#8 then do
    let d ← extDigit m pos n
    let t ← m.load (text + 1)
    if t = 0#8 then pure (xorNeg neg 0, st, calls) else extStar m pm pc (text + 1) (d.1 + 1) st calls neg d.2 (some text)
  else if c = 43#8 then do
    let t ← m.load (text + 1)
    if t = 0#8 then pure (xorNeg neg 0, st, calls) else extStar m pm pc (text + 1) (pos + 1) st calls neg n none
  else if c = 42#8 then extStar m pm pc text (pos + 1) st calls neg n none
  else if c = 92#8 then do
    let c ← m.load (pos + 1)
    match escapeClass neg c t with
    | some true => extCount m pm pc (text + 1) pos (pos + 1) count neg n st calls
    | some false => pure (0, st, calls)
    | none =>
      if c = 0#8 then pure (0, st, calls)
      else if (neg ^^ decide (c ≠ t)) then pure (0, st, calls)
      else extCount m pm pc (text + 1) pos (pos + 1) count neg n st calls
  else if c = 0#8 then pure (0, st, calls)
  else if (neg ^^ decide (c ≠ t)) then pure (0, st, calls)
  else extCount m pm pc (text + 1) pos pos count neg n st calls
partial_fixpoint

/-- src/match/match_ext.c:286-300: '*' and what '%' and '+' have in common with it; `re` is behind the character, `mp` is
`matchpos`. -/
def extStar (m : Mem) (pm : Bool) (pc : Option (Nat → Nat → Int)) (text re : Nat) (st : Option TextMatch) (calls : List MCall)
    (neg : Bool) (n : Nat) (mp : Option Nat) : Res ExtOut := do
  let d ← m.load re
  if d = 0#8 then do
    if mp.isSome ∧ (pm = true ∨ st.isSome = true) then do
      let e ← textEnd m text
      pure (xorNeg neg 1, extReport pm n mp e st calls)
    else pure (xorNeg neg 1, st, calls)
  else extStarLoop m pm pc text re st calls neg n mp
partial_fixpoint

/-- src/match/match_ext.c:306-324: the rest of the pattern is tried at every character of the text. -/
def extStarLoop (m : Mem) (pm : Bool) (pc : Option (Nat → Nat → Int)) (text re : Nat) (st : Option TextMatch)
    (calls : List MCall) (neg : Bool) (n : Nat) (mp : Option Nat) : Res ExtOut := do
  let r ← matchExt m pm pc text re st calls
  if r.1 ≠ 0 then pure (xorNeg neg 1, extReport pm n mp text r.2.1 r.2.2)
  else do
    let t ← m.load (text + 1)
    if t = 0#8 then do
      let c ← m.load re
      if c = 35#8 ∨ c = 36#8 then do
        let d ← m.load (re + 1)
        if d = 0#8 then pure (xorNeg neg 1, extReport pm n mp (text + 1) r.2.1 r.2.2) else pure (xorNeg neg 0, r.2)
      else pure (xorNeg neg 0, r.2)
    else extStarLoop m pm pc (text + 1) re r.2.1 r.2.2 neg n mp
partial_fixpoint
end

end Minilib

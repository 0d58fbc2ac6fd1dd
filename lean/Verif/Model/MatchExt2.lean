import Verif.Model.MatchExt
/-
The second matching engine: /repo/src/match/match_ext2.c.

As in Model/MatchExt: `pm` tells whether `p_matched_cb` is given, its calls are recorded; `pc` is `p_wildcard_cb`.  The engine
returns the position in the text where the match ends, 0 for none.  What it prints while it works is recorded as events, not
as text.  The count of src/match/match_ext2.c:346 is 1 and never set again: the loop `while (count --> 0)` runs once, and
`count` is 0 in it.
-/

set_option autoImplicit false

namespace Minilib
open Mem

/-- What is printed: src/match/match_ext2.c:530 "starmatch…", :601 "re_match end", :365 "  == closing }", :397-402 the trace of
a loop in braces, :457-461 the trace of a bracket. -/
inductive Trace where
  | star
  | textEnd
  | closing
  | loop
  | bracket
deriving DecidableEq

/-- What the engine changes: the struct, the calls of the callback, the output. -/
structure Ext2St where
  st : Option TextMatch
  calls : List MCall
  out : List Trace
deriving DecidableEq

/-- The position where the match ends (0 for none) and the state. -/
abbrev Ext2Out := Nat × Ext2St

/-- Something is printed. -/
def Ext2St.say (q : Ext2St) (t : Trace) : Ext2St := { q with out := q.out ++ [t] }

/-- src/match/match_ext2.c:519-528 and 549-556: the callback and the struct for a '%'. -/
def Ext2St.report (q : Ext2St) (pm : Bool) (n : Nat) (mp : Option Nat) (text : Nat) : Ext2St :=
  { q with st := (extReport pm n mp text q.st q.calls).1, calls := (extReport pm n mp text q.st q.calls).2 }

/-- src/match/match_ext2.c:566-581, the lines `_MATCH`; the condition is in parentheses here. -/
def escape2 (neg : Bool) (c t : Byte) : Option Bool :=
  if c = 110#8 then some (neg ^^ decide (t = 10#8))
  else if c = 116#8 then some (neg ^^ decide (t = 9#8))
  else if c = 100#8 then some (neg ^^ isdigit (t.signExtend 32))
  else if c = 68#8 then some (neg ^^ !isdigit (t.signExtend 32))
  else if c = 115#8 then some (neg ^^ isspace (t.signExtend 32))
  else if c = 83#8 then some (neg ^^ !isspace (t.signExtend 32))
  else if c = 119#8 then some (neg ^^ ((decide (32 ≤ t.toInt) && decide (t.toInt ≤ 126)) || decide (160 ≤ t.toInt)))
  else if c = 87#8 then some (neg ^^ (decide (t.toInt < 32) || (decide (126 < t.toInt) && decide (t.toInt < 160))))
  else if c = 120#8 then some (neg ^^ (isdigit (t.signExtend 32) || (decide (97 ≤ t.toInt) && decide (t.toInt ≤ 102)) ||
    (decide (65 ≤ t.toInt) && decide (t.toInt ≤ 70))))
  else none

/-- src/match/match_ext2.c:387-391: the number behind '{'. -/
def ext2Number (m : Mem) (re : Nat) (c : Int) : Res (Nat × Int) := do
  let d ← m.load re
  if isdigit (d.signExtend 32) then do
    let x ← ckInt (c * 10)
    let x ← ckInt (x + (d.toInt - 48))
    let c ← ckInt (c + x)
    ext2Number m (re + 1) c
  else pure (re, c)
partial_fixpoint

/-- src/match/match_ext2.c:407-409 and 446-449: up to the character `e`; none when there is none. -/
def ext2Skip (m : Mem) (e : Byte) (re : Nat) : Res (Option Nat) := do
  let c ← m.load re
  if c = e then pure (some re) else if c = 0#8 then pure none else ext2Skip m e (re + 1)
partial_fixpoint

/-- src/match/match_ext2.c:596-613: the text is at its end. -/
def ext2End (m : Mem) (text re : Nat) (q : Ext2St) : Res Ext2Out := do
  let c ← m.load re
  let re := if c = 44#8 then re + 1 else re
  let c ← m.load re
  if c = 35#8 ∨ c = 36#8 then pure (text, q.say .textEnd)
  else if c = 0#8 then pure (text, q)
  else if c = 42#8 then do
    let d ← m.load (re + 1)
    if d = 0#8 then pure (text, q) else pure (0, q)
  else pure (0, q)

mutual
/-- src/match/match_ext2.c:326-334 `_match_ext2`: the first lines. -/
def ext2 (m : Mem) (pm : Bool) (pc : Option (Nat → Nat → Int)) (text re : Nat) (q : Ext2St) : Res Ext2Out :=
  ext2Loop m pm pc text re 0 { q with st := q.st.map fun s => { s with len := 0 } }
partial_fixpoint

/-- src/match/match_ext2.c:342-353 and 589-592: the loop over the text; `n` is `n_match`. -/
def ext2Loop (m : Mem) (pm : Bool) (pc : Option (Nat → Nat → Int)) (text re n : Nat) (q : Ext2St) : Res Ext2Out := do
  let t ← m.load text
  if t = 0#8 then ext2End m text re q
  else do
    let c ← m.load re
    if c = 33#8 then do
      let d ← m.load (re + 1)
      ext2Step m pm pc text (re + 1) true n q t d
    else if c = 44#8 then do
      let d ← m.load (re + 1)
      ext2Step m pm pc text (re + 1) false n q t d
    else ext2Step m pm pc text re false n q t c
partial_fixpoint

/-- src/match/match_ext2.c:355-588: closing brackets, braces and the `switch`; `t` is the character of the text, `c` that of
the pattern at `re`. -/
def ext2Step (m : Mem) (pm : Bool) (pc : Option (Nat → Nat → Int)) (text re : Nat) (neg : Bool) (n : Nat) (q : Ext2St) (t c : Byte) :
    Res Ext2Out :=
  if c = 41#8 then do
    let r ← ext2 m pm pc text (re + 1) q
    if r.1 = 0 then pure (0, r.2) else pure (text, r.2)
  else if c = 125#8 then pure (text, q.say .closing)
  else if c = 123#8 then ext2Brace m pm pc text (re + 1) q
  else if c = 63#8 then (if neg then pure (0, q) else ext2Loop m pm pc (text + 1) (re + 1) n q)
  else if c = 64#8 then
    (if (neg ^^ decide (t = 10#8)) then ext2Loop m pm pc (text + 1) (re + 1) n q else pure (0, q))
  else if c = 91#8 then do
    let r ← classFind m t (re + 1)
    match r with
    | none => if neg then pure (text, q) else pure (0, q)
    | some re => do
      let re ← classEnd m re
      let d ← m.load re
      if d = 0#8 then pure (0, q)
      else if neg then pure (0, q)
      else ext2Loop m pm pc (text + 1) (re + 1) n q
  else if c = 40#8 then do
    let e ← ext2Skip m 41#8 (re + 1)
    match e with
    | none => pure (0, q)
    | some _ => do
      let r ← ext2 m pm pc text (re + 1) q
      if r.1 = 0 then pure (0, r.2) else pure (r.1, r.2.say .bracket)
  else if c = 35#8 then
    (if (neg ^^ isspace (t.signExtend 32)) then ext2Loop m pm pc (text + 1) (re + 1) n q else pure (0, q))
  else if c = 36#8 then
    (if (neg ^^ decide (t = 10#8)) then ext2Loop m pm pc (text + 1) (re + 1) n q else pure (0, q))
  else if c = 38#8 then do
    let d ← extDigit m re n
    match pc with
    | none => if neg then pure (0, q) else ext2Loop m pm pc (text + 1) (d.1 + 1) d.2 q
    | some f =>
      let v := f d.2 text
      if v = 0 then (if neg then ext2Loop m pm pc (text + 1) (d.1 + 1) d.2 q else pure (0, q))
      else if v = -1 then (if neg then pure (0, q) else pure (text, q))
      else if neg then pure (0, q)
      else if (text : Int) + v < 0 then .ub
      else ext2Loop m pm pc (((text : Int) + v).toNat + 1) (d.1 + 1) d.2 q
  else if c = 37#8 then do
    let d ← extDigit m re n
    let t ← m.load (text + 1)
    if t = 0#8 then (if neg then pure (text + 1, q) else pure (0, q)) else ext2Star m pm pc (text + 1) (d.1 + 1) q d.2 (some text)
  else if c = 43#8 then do
    let t ← m.load (text + 1)
    if t = 0#8 then (if neg then pure (text + 1, q) else pure (0, q)) else ext2Star m pm pc (text + 1) (re + 1) q n none
  else if c = 42#8 then ext2Star m pm pc text (re + 1) q n none
  else if c = 92#8 then do
    let c ← m.load (re + 1)
    match escape2 neg c t with
    | some true => ext2Loop m pm pc (text + 1) (re + 2) n q
    | some false => pure (0, q)
    | none =>
      if c = 0#8 then pure (0, q)
      else if (neg ^^ decide (c ≠ t)) then pure (0, q)
      else ext2Loop m pm pc (text + 1) (re + 2) n q
  else if c = 0#8 then pure (0, q)
  else if (neg ^^ decide (c ≠ t)) then pure (0, q)
  else ext2Loop m pm pc (text + 1) (re + 1) n q
partial_fixpoint

/-- src/match/match_ext2.c:369-392: behind '{'. -/
def ext2Brace (m : Mem) (pm : Bool) (pc : Option (Nat → Nat → Int)) (text re : Nat) (q : Ext2St) : Res Ext2Out := do
  let c ← m.load re
  if c = 43#8 then do
    let r ← ext2 m pm pc text (re + 1) q
    if r.1 = 0 then pure (0, r.2) else ext2Repeat m pm pc r.1 (re + 1) (-1) r.2
  else if c = 42#8 then ext2Repeat m pm pc text (re + 1) (-1) q
  else do
    let p ← ext2Number m re 0
    ext2Repeat m pm pc text p.1 p.2 q
partial_fixpoint

/-- src/match/match_ext2.c:394-405: the part in braces is tried again and again, then what is behind the '}'. -/
def ext2Repeat (m : Mem) (pm : Bool) (pc : Option (Nat → Nat → Int)) (ret re : Nat) (c : Int) (q : Ext2St) : Res Ext2Out := do
  if c = 0 then ext2Behind m pm pc ret re q
  else do
    let r ← ext2 m pm pc ret re q
    if r.1 = 0 then (if 0 < c then pure (0, r.2) else ext2Behind m pm pc ret re r.2)
    else do
      let c ← ckInt (c - 1)
      ext2Repeat m pm pc r.1 re c (r.2.say .loop)
partial_fixpoint

/-- src/match/match_ext2.c:407-412: what is behind the '}'. -/
def ext2Behind (m : Mem) (pm : Bool) (pc : Option (Nat → Nat → Int)) (ret re : Nat) (q : Ext2St) : Res Ext2Out := do
  let e ← ext2Skip m 125#8 re
  match e with
  | none => pure (0, q)
  | some e => ext2 m pm pc ret (e + 1) q
partial_fixpoint

/-- src/match/match_ext2.c:516-535: '*' and what '%' and '+' have in common with it; `re` is behind the character, `mp` is
`matchpos`. -/
def ext2Star (m : Mem) (pm : Bool) (pc : Option (Nat → Nat → Int)) (text re : Nat) (q : Ext2St) (n : Nat) (mp : Option Nat) :
    Res Ext2Out := do
  let d ← m.load re
  if d = 0#8 then do
    if mp.isSome ∧ (pm = true ∨ q.st.isSome = true) then do
      let e ← textEnd m text
      pure (e, (q.report pm n mp e).say .star)
    else pure (text, q.say .star)
  else ext2StarLoop m pm pc text re q n mp
partial_fixpoint

/-- src/match/match_ext2.c:538-559: the rest of the pattern is tried at every character of the text. -/
def ext2StarLoop (m : Mem) (pm : Bool) (pc : Option (Nat → Nat → Int)) (text re : Nat) (q : Ext2St) (n : Nat) (mp : Option Nat) :
    Res Ext2Out := do
  let r ← ext2 m pm pc text re q
  if r.1 ≠ 0 then pure (r.1, r.2.report pm n mp text)
  else do
    let t ← m.load (text + 1)
    if t = 0#8 then do
      let c ← m.load re
      if c = 35#8 ∨ c = 36#8 then pure (0, r.2.report pm n mp (text + 1)) else pure (0, r.2)
    else ext2StarLoop m pm pc (text + 1) re r.2 n mp
partial_fixpoint
end

/-- src/match/match_ext2.c:306-323 `match_ext2`. -/
def matchExt2 (m : Mem) (pm : Bool) (pc : Option (Nat → Nat → Int)) (text re : Nat) (q : Ext2St) : Res Ext2Out := do
  let c ← m.load re
  let d ← (if c = 42#8 then m.load (re + 1) else pure 0#8)
  if (c = 42#8 ∧ d = 64#8) ∨ c = 64#8 then do
    let r ← ext2 m pm pc text (re + (if c = 42#8 then 2 else 1)) q
    if r.1 ≠ 0 then pure (1, r.2)
    else do
      let r ← ext2 m pm pc text re r.2
      pure (if r.1 ≠ 0 then 1 else 0, r.2)
  else do
    let r ← ext2 m pm pc text re q
    pure (if r.1 ≠ 0 then 1 else 0, r.2)

end Minilib

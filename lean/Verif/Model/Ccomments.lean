import Verif.Model.Streams
/-
Model of /repo/tools/removeccomments.c, a filter from standard input to standard output.

The static array `filebuf` of 1000000 bytes, zero at the start, is a function from indices to bytes; access outside of it is undefined.  Pointers into it are
indices.  `puts` and `putchar` are taken to write everything (C68, C88 have what they do otherwise).  The debug output (`pf`, `pline`) is not compiled.
-/

set_option autoImplicit false

namespace Minilib

/-- tools/removeccomments.c:56 `BUFSIZE`. -/
def rcBufsize : Nat := 1000000
/-- tools/removeccomments.c:58 `MAXLINECOUNT`. -/
def rcMaxline : Nat := 500000

/-- `filebuf[i]` as rvalue. -/
def rcRd (B : Nat → Byte) (i : Int) : Res Byte := if 0 ≤ i ∧ i < (rcBufsize : Int) then .ok (B i.toNat) else .ub

/-- The bytes `l` at index `a`. -/
def rcPut (B : Nat → Byte) (a : Nat) (l : List Byte) : Nat → Byte := fun i => if a ≤ i then (l[i - a]?).getD (B i) else B i

/-- tools/removeccomments.c:76-89 `readfile`, the loop: the kernel stores the bytes it delivers, up to 4096, from `filebuf + total` on. -/
def rcReadfile (K : RKernel) (s : Input) (B : Nat → Byte) (total : Nat) : Res (Int × (Nat → Byte) × Input) :=
  let r := sysRead K s 4096
  if r.1 > 0 then
    if total + r.2.1.length > rcBufsize then .ub
    else if total + r.2.1.length > rcBufsize then pure (-1, rcPut B total r.2.1, r.2.2)
    else rcReadfile K r.2.2 (rcPut B total r.2.1) (total + r.2.1.length)
  else pure ((total : Int), B, r.2.2)
partial_fixpoint

/-- `c <= ' '` for a (signed) char. -/
def rcLow (c : Byte) : Bool := decide (c.toInt ≤ 32)

/-- `while (ptr[j] is none of the given && j < len) j++;` (tools/removeccomments.c:95, 111, 154, 172): `k` is what is left up to `len`. -/
def rcScan (stop : Byte → Bool) (B : Nat → Byte) (p : Nat) : Nat → Nat → Res Nat
  | 0, j => do
    let _ ← rcRd B (p + j : Nat)
    pure j
  | k + 1, j => do
    let c ← rcRd B (p + j : Nat)
    if stop c then pure j else rcScan stop B p k (j + 1)

/-- tools/removeccomments.c:91-105 `match_quote`: whether a closing quote was found, and the new position. -/
def rcQuote (B : Nat → Byte) (p len : Nat) : Nat → Nat → Res (Bool × Nat)
  | 0, j => pure (false, j)
  | k + 1, j =>
    if j < len then do
      let j ← rcScan (· = 34#8) B p (len - j) j
      if j < len then do
        let c ← rcRd B ((p : Int) + (j + 1 : Nat) - 2)
        if c = 92#8 then rcQuote B p len k (j + 1) else pure (true, j + 1)
      else rcQuote B p len k j
    else pure (false, j)

/-- tools/removeccomments.c:107-121 `match_cms`, the loop. -/
def rcCmsLoop (B : Nat → Byte) (p len : Nat) : Nat → Nat → Res (Bool × Nat)
  | 0, j => pure (false, j)
  | k + 1, j =>
    if j < len then do
      let j ← rcScan (· = 47#8) B p (len - j) j
      if j < len then do
        let c ← rcRd B ((p : Int) + (j + 1 : Nat) - 2)
        if c = 42#8 then pure (true, j + 1) else rcCmsLoop B p len k (j + 1)
      else rcCmsLoop B p len k j
    else pure (false, j)

/-- tools/removeccomments.c:107-121 `match_cms`. -/
def rcCms (B : Nat → Byte) (p pos len : Nat) : Res (Bool × Nat) :=
  let j := if pos < len then pos + 1 else pos
  rcCmsLoop B p len (len - j + 1) j

/-- tools/removeccomments.c:133: the leading blanks of a line; `fuel` cells are left in the array. -/
def rcLead (B : Nat → Byte) (p : Nat) : Nat → Nat → Res Nat
  | 0, _ => .ub
  | k + 1, j => do
    let c ← rcRd B (p + j : Nat)
    if rcLow c ∧ c ≠ 10#8 ∧ c ≠ 13#8 then rcLead B p k (j + 1) else pure j

/-- tools/removeccomments.c:135: the end of a line. -/
def rcEol (B : Nat → Byte) (p : Nat) : Nat → Nat → Res Nat
  | 0, _ => .ub
  | k + 1, j => do
    let c ← rcRd B (p + j : Nat)
    if c ≠ 10#8 ∧ c ≠ 13#8 then rcEol B p k (j + 1) else pure j

/-- tools/removeccomments.c:167: the length without trailing blanks. -/
def rcTrim (B : Nat → Byte) (p : Nat) : Nat → Res Nat
  | 0 => pure 0
  | len + 1 => do
    let c ← rcRd B (p + len : Nat)
    if rcLow c then rcTrim B p len else pure (len + 1)

/-- What the loop over the rest of a line changes. -/
structure RcScan where
  j : Nat
  quote : Bool
  cms : Nat
  ccms : Bool
  null : Bool

/-- tools/removeccomments.c:170-194: the rest of a line, with no comment or string open at its start. -/
def rcRest (B : Nat → Byte) (p start len : Nat) : Nat → RcScan → Res RcScan
  | 0, s => pure s
  | k + 1, s =>
    if s.j < len then do
      let j ← rcScan (fun c => c = 34#8 || c = 47#8) B p (len - s.j) s.j
      let c ← rcRd B (p + j : Nat)
      if c = 34#8 then do
        let r ← rcQuote B p len (len - (j + 1) + 1) (j + 1)
        if r.1 then rcRest B p start len k { s with j := r.2 } else pure { s with j := r.2, quote := true }
      else if c = 47#8 then do
        let d ← rcRd B (p + (j + 1) : Nat)
        if d = 42#8 then do
          let r ← rcCms B p (j + 2) len
          if r.1 then rcRest B p start len k { s with j := r.2, cms := 0 } else pure { s with j := r.2, cms := j + 1 }
        else if d = 47#8 then pure { s with j := j + 1, null := s.null || decide (j + 1 = start + 1), ccms := true }
        else rcRest B p start len k { s with j := j + 1 }
      else rcRest B p start len k { s with j := j }
    else pure s

/-- The flags that are kept from line to line: `prev != -1`, and the three flags. -/
structure RcSt where
  prev : Bool
  quote : Bool
  cms : Nat
  ccms : Bool

/-- An element of `lines`: the index of its first byte (`none` is NULL) and its length. -/
structure RcLine where
  p : Option Nat
  n : Nat

/-- The number of decimal digits. -/
def rcDigits (x : Nat) : Nat := if x < 10 then 1 else rcDigits (x / 10) + 1

/-- The length of a number printed with `%2d` (tools/removeccomments.c:138). -/
def rcWidth (x : Nat) : Nat := max 2 (rcDigits x)

/-- tools/removeccomments.c:141-149: the previous line continues; position, string flag, and whether the line is to be removed. -/
def rcCont (B : Nat → Byte) (i j len : Nat) (s : RcSt) : Res (Nat × Bool × Bool) :=
  if s.prev then do
    let r ← (if s.quote then do
        let q ← rcQuote B i len (len - j + 1) j
        pure (q.2, !q.1)
      else pure (j, false) : Res (Nat × Bool))
    if s.ccms then pure (len, r.2, true) else pure (r.1, r.2, false)
  else pure (j, s.quote, false)

/-- What is known of a line once an open comment was looked for: where it starts, the position, the length, the first character that is no blank, the
comment flag, and whether the line is to be removed. -/
structure RcHead where
  p : Nat
  j : Nat
  len : Nat
  start : Nat
  cms : Nat
  null : Bool

/-- tools/removeccomments.c:150-157: the end of a comment that is open at the start of the line. -/
def rcOpen (B : Nat → Byte) (i j len start cms : Nat) (null : Bool) : Res RcHead :=
  if cms ≠ 0 then do
    let r ← rcCms B i j len
    if r.1 then do
      let b ← rcScan (fun c => !rcLow c) B (i + r.2) (len - r.2) 0
      pure ⟨i + r.2, b, len - r.2, b, 0, null⟩
    else pure ⟨i, r.2, len, start, cms, true⟩
  else pure ⟨i, j, len, start, cms, null⟩

/-- tools/removeccomments.c:195-203: what is noted in `lines`, and the flags for the next line. -/
def rcEntry (B : Nat → Byte) (h : RcHead) (len : Nat) (prev : Bool) (s : RcScan) : Res (RcLine × RcSt) := do
  let c ← rcRd B (h.p + h.start : Nat)
  let isC ← (if c = 47#8 then do
      let d ← rcRd B (h.p + h.start + 1 : Nat)
      pure (decide (d = 42#8))
    else pure false : Res Bool)
  let null := s.null || (isC && (decide (s.cms ≠ 0) || decide (s.j = len)))
  let n := if isC then len else if s.cms ≠ 0 then s.cms - 1 else len
  pure (⟨if null then none else some h.p, n⟩, ⟨prev, prev && s.quote, s.cms, prev && s.ccms⟩)

/-- tools/removeccomments.c:128-206: one line, number `n`, that starts at `i`: the index of its last byte, the entry, the flags. -/
def rcStep (B : Nat → Byte) (n i : Nat) (s : RcSt) : Res (Nat × RcLine × RcSt) := do
  let start ← rcLead B i (rcBufsize - i) 0
  let len ← rcEol B i (rcBufsize - (i + start)) start
  if rcMaxline ≤ n then .ub
  else if 16 < rcWidth (n + 1) + 1 + rcWidth start + 1 + rcWidth len + 1 then .ub
  else do
    let a ← rcCont B i start len s
    let h ← rcOpen B i a.1 len start s.cms a.2.2
    let c ← rcRd B ((h.p : Int) + h.len - 1)
    let prev := decide (c = 92#8) && decide (0 < h.len)
    let e ← rcRd B (h.p + h.len : Nat)
    let i' ← (if e = 13#8 then do
        let e ← rcRd B (h.p + h.len + 1 : Nat)
        pure (if e = 10#8 then h.p + h.len + 1 else h.p + h.len)
      else pure (h.p + h.len) : Res Nat)
    let len ← rcTrim B h.p h.len
    let r ← rcRest B h.p h.start len (len - h.j + 1) ⟨h.j, a.2.1, h.cms, s.ccms, h.null⟩
    let x ← rcEntry B h len prev r
    pure (i', x.1, x.2)

/-- tools/removeccomments.c:128-206: the loop over the lines; `fuel` is what is left of the text. -/
def rcLines (B : Nat → Byte) (total : Nat) : Nat → Nat → Nat → RcSt → Res (List RcLine)
  | 0, _, _, _ => pure []
  | k + 1, n, i, s =>
    if i < total then do
      let r ← rcStep B n i s
      let l ← rcLines B total k (n + 1) (r.1 + 1) r.2.2
      pure (r.2.1 :: l)
    else pure []

/-- tools/removeccomments.c:123-208 `splittolines`: stores the sentinel, then the lines. -/
def rcSplit (B : Nat → Byte) (total : Int) : Res ((Nat → Byte) × List RcLine) :=
  if total ≤ 0 then pure (B, [])
  else if (rcBufsize : Int) ≤ total then .ub
  else do
    let B := rcPut B total.toNat [10#8]
    let l ← rcLines B total.toNat total.toNat 0 0 ⟨false, false, 0, false⟩
    pure (B, l)

/-- The string at `p` (`puts`, tools/removeccomments.c:228); `fuel` cells are left. -/
def rcStr (B : Nat → Byte) : Nat → Nat → Res (List Byte)
  | 0, _ => .ub
  | k + 1, p => do
    let c ← rcRd B (p : Nat)
    if c = 0#8 then pure [] else do
      let l ← rcStr B k (p + 1)
      pure (c :: l)

/-- tools/removeccomments.c:222-230 `printlines`: the bytes written. -/
def rcPrint (B : Nat → Byte) : List RcLine → Res (List Byte)
  | [] => pure []
  | x :: l =>
    match x.p with
    | none => do
      let o ← rcPrint B l
      pure (10#8 :: o)
    | some p =>
      if rcBufsize ≤ p + x.n then .ub
      else do
        let B := rcPut B (p + x.n) [0#8]
        let s ← rcStr B (rcBufsize - p) p
        let o ← rcPrint B l
        pure (s ++ 10#8 :: o)

/-- tools/removeccomments.c:232-238 `main`: what is written. -/
def rcMain (K : RKernel) (s : Input) : Res (List Byte) := do
  let r ← rcReadfile K s (fun _ => 0#8) 0
  let l ← rcSplit r.2.1 r.1
  rcPrint l.1 l.2

end Minilib

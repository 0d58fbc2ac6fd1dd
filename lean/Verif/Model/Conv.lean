import Verif.C.Mem
import Verif.C.Int
/-
Models of /repo/src/conversions/*.c (all except dtodec.c, see Model/Dtodec).

`int` and `long` values are mathematical integers; operations whose result may leave the type go
through `ckInt`/`ckLong` (signed overflow is undefined).  A left shift of a signed value wraps, as
GCC documents.
-/

set_option autoImplicit false

namespace Minilib
open Mem

/-- The result of a `long` operation: undefined when it does not fit into 64 bits. -/
def ckLong (x : Int) : Res Int :=
  if -9223372036854775808 ≤ x ∧ x ≤ 9223372036854775807 then .ok x else .ub

/-! ### itodec -/

/-- src/conversions/itodec.c:30, the table `div` (the loop at 64 visits its first 12 entries). -/
def uitodecDiv : List Nat :=
  [0, 100000000, 10000000, 1000000, 0, 100000, 10000, 1000, 0, 100, 10, 1]

/-- src/conversions/itodec.c:71-96: the digit of `i` for the weight `d`.  `none` when `i - d` is
negative; else the value added to '0' and the remaining `i`.  All values are below 2^31 in absolute
value for the weights of the table, so no operation overflows. -/
def uitodecDigit (i d : Nat) : Option (Nat × Nat) :=
  let t1 := toInt32 ((i : Int) - d)
  if t1 ≥ 0 then
    let dec : Int := d * 4
    let t2 := t1 - dec
    if t2 ≥ 0 ∧ t2 - dec ≥ 0 then some (9, (t2 - dec).toNat)
    else
      let n := if t2 ≥ 0 then 5 else 1
      let t1 := if t2 ≥ 0 then t2 else t1
      let n1 := if t1 - d * 2 ≥ 0 then n + 2 else n
      let t1' := if t1 - d * 2 ≥ 0 then t1 - d * 2 else t1
      let n2 := if t1' - d ≥ 0 then n1 + 1 else n1
      let t1'' := if t1' - d ≥ 0 then t1' - d else t1'
      some (n2, t1''.toNat)
  else none

/-- src/conversions/itodec.c:64-110, the loop over the table. -/
def uitodecLoop (limiter trail : Byte) (buf : Nat) :
    List Nat → Mem → Nat → Nat → Int → Bool → Res (Mem × Nat)
  | [], m, p, _, _, _ => .ok (m, p)
  | d :: ds, m, p, i, prec, trailing =>
    if d = 0 then
      if limiter ≠ 0#8 ∧ prec = 0 then do
        let m ← m.store (buf + p) limiter
        uitodecLoop limiter trail buf ds m (p + 1) i prec trailing
      else uitodecLoop limiter trail buf ds m p i prec trailing
    else
      match uitodecDigit i d with
      | some (n, i) => do
        let m ← m.store (buf + p) (BitVec.ofNat 8 (48 + n))
        uitodecLoop limiter trail buf ds m (p + 1) i 0 false
      | none =>
        if prec = 0 then do
          let m ← m.store (buf + p) (if trailing then trail else 48#8)
          uitodecLoop limiter trail buf ds m (p + 1) i prec trailing
        else do
          let prec ← ckInt (prec + 1)
          uitodecLoop limiter trail buf ds m p i prec trailing

/-- src/conversions/itodec.c:32-53: the leading digit of a ten digit number and the rest. -/
def uitodecLead (i : Nat) : Byte × Nat :=
  if i ≥ 2000000000 then
    let i := i - 2000000000
    if i ≥ 1000000000 then
      if i ≥ 2000000000 then (52#8, i - 2000000000) else (51#8, i - 1000000000)
    else (50#8, i)
  else (49#8, i - 1000000000)

/-- src/conversions/itodec.c:111-117: "0" if nothing was written, and the terminator. -/
def uitodecEnd (buf : Nat) (r : Mem × Nat) : Res (Mem × Int) := do
  if r.2 = 0 then
    let m ← r.1.store buf 48#8
    let m ← m.store (buf + 1) 0#8
    pure (m, 1)
  else
    let m ← r.1.store (buf + r.2) 0#8
    pure (m, (r.2 : Int))

/-- src/conversions/itodec.c:32-117: everything after the special case for 0; `prec` is already
reduced by 10. -/
def uitodecMain (m : Mem) (i buf : Nat) (prec : Int) (limiter trail : Byte) : Res (Mem × Int) := do
  if i ≥ 1000000000 then
    let m ← m.store buf (uitodecLead i).1
    let r ← uitodecLoop limiter trail buf uitodecDiv m 1 (uitodecLead i).2 0 false
    uitodecEnd buf r
  else if prec = 0 then
    let m ← m.store buf 32#8
    let r ← uitodecLoop limiter trail buf uitodecDiv m 1 i prec true
    uitodecEnd buf r
  else
    let prec ← ckInt (prec + 1)
    let r ← uitodecLoop limiter trail buf uitodecDiv m 0 i prec true
    uitodecEnd buf r

/-- src/conversions/itodec.c:9-118 `uitodec`. -/
def uitodec (m : Mem) (i buf : Nat) (prec : Int) (limiter pad : Byte) : Res (Mem × Int) := do
  let prec ← ckInt (prec - 10)
  let m ← (if i = 0 then m.store buf 48#8 else .ok m)
  uitodecMain m i buf prec limiter (if pad ≠ 0#8 then pad else 32#8)

/-- src/conversions/itodec.c:123-130 `itodec`. -/
def itodec (m : Mem) (i : Int) (buf : Nat) (prec : Int) (limiter pad : Byte) : Res (Mem × Int) := do
  if i < 0 then
    let m ← m.store buf 45#8
    let i ← ckInt (-i)
    let r ← uitodec m i.toNat (buf + 1) prec limiter pad
    pure (r.1, r.2 + 1)
  else uitodec m i.toNat buf prec limiter pad

/-! ### ultodec -/

/-- src/conversions/ultodec.c:30-33, `while ( ui>=l ){ b++; ui-=l; }`. -/
def ultodecDigit (ui l b : Nat) : Res (Nat × Nat) :=
  if ui ≥ l then ultodecDigit (ui - l) l (b + 1) else pure (b, ui)
partial_fixpoint

/-- src/conversions/ultodec.c:24-47, the loop over the positions `p`, with `buf` and the count `c`
advancing together.  The comparison at 27 is done on the 64 bit difference read as signed. -/
def ultodecLoop (prec : Int) (limiter : Byte) (m : Mem) (buf ui l p : Nat) (a : Bool) (c : Int) :
    Res (Mem × Nat × Int) := do
  if p > 0 then
    let a := if (p : Int) ≤ prec then true else a
    if a ∨ Int.bmod ((ui : Int) - l) 18446744073709551616 ≥ 0 then
      let r ← ultodecDigit ui l 0
      if limiter ≠ 0#8 ∧ p % 3 = 0 then
        let m ← m.store buf limiter
        let m ← m.store (buf + 1) (BitVec.ofNat 8 (48 + r.1))
        ultodecLoop prec limiter m (buf + 2) r.2 (l / 10) (p - 1) true (c + 2)
      else
        let m ← m.store buf (BitVec.ofNat 8 (48 + r.1))
        ultodecLoop prec limiter m (buf + 1) r.2 (l / 10) (p - 1) true (c + 1)
    else ultodecLoop prec limiter m buf ui (l / 10) (p - 1) a c
  else pure (m, buf, c)
partial_fixpoint

/-- src/conversions/ultodec.c:49-50: terminator and result. -/
def ultodecEnd (r : Mem × Nat × Int) : Res (Mem × Int) := do
  let m ← r.1.store r.2.1 0#8
  pure (m, r.2.2)

/-- src/conversions/ultodec.c:2-51 `ultodec`. -/
def ultodec (m : Mem) (ui buf : Nat) (prec : Int) (limiter : Byte) : Res (Mem × Int) := do
  if ui ≥ 10000000000000000000 then
    let m ← m.store buf 49#8
    let r ← ultodecLoop prec limiter m (buf + 1) (ui - 10000000000000000000)
      1000000000000000000 19 true 1
    ultodecEnd r
  else if prec ≥ 20 then
    let m ← m.store buf 48#8
    let r ← ultodecLoop prec limiter m (buf + 1) ui 1000000000000000000 19 true 1
    ultodecEnd r
  else
    let r ← ultodecLoop prec limiter m buf ui 1000000000000000000 19 false 0
    ultodecEnd r

/-- src/conversions/ltodec.c:3-10 `ltodec`. -/
def ltodec (m : Mem) (i : Int) (buf : Nat) (prec : Int) (limiter : Byte) : Res (Mem × Int) := do
  if i < 0 then
    let m ← m.store buf 45#8
    let i ← ckLong (-i)
    let r ← ultodec m i.toNat (buf + 1) prec limiter
    pure (r.1, r.2 + 1)
  else ultodec m i.toNat buf prec limiter

/-! ### itohex -/

/-- src/conversions/itohex.c:17-19: the byte `c[a]` of `conv[b]` (little endian union). -/
def itohexConv (i : BitVec 32) (a b : Nat) : Nat :=
  ((if b = 0 then (i &&& 0xf0f0f0f0#32) >>> 4 else i &&& 0x0f0f0f0f#32).extractLsb' (8 * a) 8).toNat

/-- src/conversions/itohex.c:23-41, the two nested loops; the list holds the pairs `(a, b)` still to
be visited. -/
def itohexLoop (i : BitVec 32) (capitals : Nat) (buf : Nat) :
    List (Nat × Nat) → Mem → Nat → Int → Res (Mem × Nat)
  | [], m, p, _ => .ok (m, p)
  | (a, b) :: l, m, p, padding => do
    let c := itohexConv i a b
    let padding := if padding ≠ 0 ∧ c ≠ 0 then 0 else padding
    if padding = 0 then
      let m ← m.store (buf + p) (BitVec.ofNat 8 (if c < 10 then c + 48 else c + capitals))
      itohexLoop i capitals buf l m (p + 1) padding
    else itohexLoop i capitals buf l m p (padding + 1)

/-- src/conversions/itohex.c:6-44 `_itohex`. -/
def itohex_ (m : Mem) (i : BitVec 32) (buf : Nat) (padding capitals : Int) : Res (Mem × Int) := do
  let padding ← ckInt (padding - 8)
  let padding := if padding < -7 then -7 else padding
  let r ← itohexLoop i (if capitals > 0 then 55 else 87) buf
    [(3, 0), (3, 1), (2, 0), (2, 1), (1, 0), (1, 1), (0, 0), (0, 1)] m 0 padding
  let m ← r.1.store (buf + r.2) 0#8
  pure (m, (r.2 : Int))

/-- src/conversions/itohex.c:53-55 `itohex`. -/
def itohex (m : Mem) (i : BitVec 32) (buf : Nat) (padding : Int) : Res (Mem × Int) :=
  itohex_ m i buf padding 0

/-- src/conversions/itohex.c:65-67 `itoHEX`. -/
def itoHEX (m : Mem) (i : BitVec 32) (buf : Nat) (padding : Int) : Res (Mem × Int) :=
  itohex_ m i buf padding 1

/-! ### itobin -/

/-- src/conversions/itobin.c:13-23: the character for the top bit; new memory, `p` and `prec`. -/
def itobinBit (m : Mem) (i : BitVec 32) (buf p : Nat) (prec : Int) : Res (Mem × Nat × Int) := do
  if i &&& 0x80000000#32 ≠ 0#32 then
    let m ← m.store (buf + p) 49#8
    pure (m, p + 1, 0)
  else if prec = 0 then
    let m ← m.store (buf + p) 48#8
    pure (m, p + 1, prec)
  else
    let prec ← ckInt (prec + 1)
    pure (m, p, prec)

/-- src/conversions/itobin.c:12-31: the loop, `n` iterations left. -/
def itobinLoop (groups : Int) (buf : Nat) :
    Nat → Mem → BitVec 32 → Nat → Int → Int → Res (Mem × Nat)
  | 0, m, _, p, _, _ => .ok (m, p)
  | n + 1, m, i, p, prec, g => do
    let r ← itobinBit m i buf p prec
    if r.2.2 = 0 ∧ g + 1 ≥ groups then
      let m ← r.1.store (buf + r.2.1) 32#8
      itobinLoop groups buf n m (i <<< 1) (r.2.1 + 1) r.2.2 0
    else itobinLoop groups buf n r.1 (i <<< 1) r.2.1 r.2.2 (g + 1)

/-- src/conversions/itobin.c:8-38 `_itobin`. -/
def itobin_ (m : Mem) (i : BitVec 32) (buf : Nat) (prec groups : Int) : Res (Mem × Int) := do
  let prec ← ckInt (prec - 32)
  let r ← itobinLoop groups buf 32 m i 0 prec 0
  if r.2 = 0 then
    let m ← r.1.store buf 48#8
    let m ← m.store (buf + 1) 0#8
    pure (m, 1)
  else
    let m ← r.1.store (buf + r.2) 0#8
    pure (m, (r.2 : Int))

/-- src/conversions/itobin.c:46, the macro `itobin(i, buf)`: precision 0, groups of 32. -/
def itobin (m : Mem) (i : BitVec 32) (buf : Nat) : Res (Mem × Int) := itobin_ m i buf 0 32

/-! ### itooct -/

/-- src/conversions/itooct.c:20-24: `while(i!=0)`, filling `tmp`.  `i` is non-negative here, so `i&7`
and `i>>3` are remainder and quotient.  A store beyond `tmp[15]` is undefined. -/
def itooctDigits (tmp : Nat → Byte) (i p : Nat) : Res ((Nat → Byte) × Nat) :=
  if i ≠ 0 then
    if p < 16 then
      itooctDigits (fun j => if j = p then BitVec.ofNat 8 (i % 8 + 48) else tmp j) (i / 8) (p + 1)
    else .ub
  else pure (tmp, p)
partial_fixpoint

/-- src/conversions/itooct.c:26-30: `while(p>=0)`, copying `tmp[p] … tmp[0]` to `buf`; `n` is `p + 1`. -/
def itooctCopy (tmp : Nat → Byte) (m : Mem) (buf : Nat) : Nat → Res (Mem × Nat)
  | 0 => .ok (m, buf)
  | n + 1 => do
    let m ← m.store buf (tmp n)
    itooctCopy tmp m (buf + 1) n

/-- src/conversions/itooct.c:4-34 `itooct`.  The array `tmp` is not initialised: its contents are an
arbitrary parameter. -/
def itooct (tmp : Nat → Byte) (m : Mem) (i : Int) (buf : Nat) : Res (Mem × Int) := do
  if i = 0 then
    let m ← m.store buf 48#8
    let d ← itooctDigits tmp 0 0
    let r ← itooctCopy d.1 m (buf + 1) (d.2 + 1)
    let m ← r.1.store r.2 0#8
    pure (m, 1 + (d.2 : Int) + 1)
  else if i < 0 then
    let i ← ckInt (-i)
    let m ← m.store buf 45#8
    let d ← itooctDigits tmp i.toNat 0
    let r ← itooctCopy d.1 m (buf + 1) (d.2 + 1)
    let m ← r.1.store r.2 0#8
    pure (m, 1 + (d.2 : Int) + 1)
  else
    let d ← itooctDigits tmp i.toNat 0
    let r ← itooctCopy d.1 m buf (d.2 + 1)
    let m ← r.1.store r.2 0#8
    pure (m, (d.2 : Int) + 1)

/-! ### atoi, atol -/

/-- src/conversions/atoi.c:8-10: the length loop. -/
def atoiLen (m : Mem) (c a : Nat) : Res Nat := do
  let b ← m.load (c + a)
  if b ≠ 0#8 then
    let a ← incInt a
    atoiLen m c a
  else pure a
partial_fixpoint

/-- src/conversions/atoi.c:13-29: one character; `ret` and `dez` before and after. -/
def atoiStep (b : Byte) (ret dez : Int) : Res (Int × Int) := do
  if b.toInt > 48 ∧ b.toInt < 58 then
    let t := (b.toInt - 48).toNat
    let ret ← if t &&& 1 ≠ 0 then ckInt (ret + dez) else pure ret
    let dez := toInt32 (dez * 2)
    let ret ← if t &&& 2 ≠ 0 then ckInt (ret + dez) else pure ret
    let dez := toInt32 (dez * 2)
    let ret ← if t &&& 4 ≠ 0 then ckInt (ret + dez) else pure ret
    let dez := toInt32 (dez * 2)
    let ret ← if t &&& 8 ≠ 0 then ckInt (ret + dez) else pure ret
    let dez ← ckInt (dez + dez / 4)
    pure (ret, dez)
  else
    let dez := toInt32 (dez * 8)
    let dez ← ckInt (dez + dez / 4)
    pure (ret, dez)

/-- src/conversions/atoi.c:11-30: the loop from the last character to the first.  `>>` of a negative
`int` is arithmetic, i.e. division rounding down. -/
def atoiLoop (m : Mem) (c : Nat) : Nat → Int → Int → Res Int
  | 0, ret, _ => .ok ret
  | a + 1, ret, dez => do
    let b ← m.load (c + a)
    let r ← atoiStep b ret dez
    atoiLoop m c a r.1 r.2

/-- src/conversions/atoi.c:3-34 `atoi`. -/
def atoi (m : Mem) (c : Nat) : Res Int := do
  let a ← atoiLen m c 0
  let ret ← atoiLoop m c a 0 1
  let b ← m.load c
  if b = 45#8 then ckInt (-ret) else pure ret

/-- src/conversions/atol.c:12-16: the digit loop. -/
def atolLoop (m : Mem) (c : Nat) (ret : Int) : Res Int := do
  let b ← m.load c
  if b.toInt ≥ 48 ∧ b.toInt ≤ 57 then
    let ret ← ckLong (ret * 10)
    let ret ← ckLong (ret + (b.toInt - 48))
    atolLoop m (c + 1) ret
  else pure ret
partial_fixpoint

/-- src/conversions/atol.c:3-20 `atol`. -/
def atol (m : Mem) (c : Nat) : Res Int := do
  let b ← m.load c
  if b = 45#8 then
    let ret ← atolLoop m (c + 1) 0
    ckLong (-ret)
  else atolLoop m c 0

end Minilib

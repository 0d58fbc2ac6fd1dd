import Verif.Model.Conv
import Verif.Model.Str
import Verif.Model.Dtodec
/-
Models of /repo/src/output/vsnprintf.c and snprintf.c (which only forwards its arguments).

The configuration modelled is the one with all conversions built in (`mini_itodec`, `mini_dtodec`,
`mini_ltodec`, `mini_ultodec`, `mini_itohex`, `mini_itoHEX`, `mini_itooct`, `mini_itobin`, `mini_atoi`
defined).  The `int` counters `a`, `b`, `c`, `l` are natural numbers: formats and
outputs of 2^31 and more characters are not considered.
-/

set_option autoImplicit false

namespace Minilib
open Mem

/-- A variable argument: an `int` (or `unsigned int`), a `long`, a pointer to a string, a `double`
(its number of units of 2^-1074, Verif/C/Double.lean). -/
inductive PfArg where
  | int (v : BitVec 32)
  | long (v : BitVec 64)
  | str (p : Nat)
  | dbl (d : Int)

/-- `va_arg(args,int)`: reading an argument that is not there, or of another type, is undefined. -/
def vaInt : List PfArg → Res (BitVec 32 × List PfArg)
  | .int v :: r => .ok (v, r)
  | _ => .ub

/-- `va_arg(args,long)`. -/
def vaLong : List PfArg → Res (BitVec 64 × List PfArg)
  | .long v :: r => .ok (v, r)
  | _ => .ub

/-- `va_arg(args,char*)`. -/
def vaStr : List PfArg → Res (Nat × List PfArg)
  | .str v :: r => .ok (v, r)
  | _ => .ub

/-- `va_arg(args,double)`. -/
def vaDbl : List PfArg → Res (Int × List PfArg)
  | .dbl d :: r => .ok (d, r)
  | _ => .ub

/-- The local variables that describe a conversion (src/output/vsnprintf.c:33-38). -/
structure PfFlags where
  padding : Int
  sep : Byte
  groups : Int
  mod : Bool
  pad : Byte

/-- src/output/vsnprintf.c:33-38. -/
def pfInit : PfFlags := ⟨0, 0#8, 0, false, 32#8⟩

/-- What one pass through the switch does: a modifier (`end` stays 0), a conversion that ended, or the
jump to OVERFLOW. -/
inductive PfStep where
  | more (a : Nat) (fl : PfFlags)
  | done (m : Mem) (b : Nat) (args : List PfArg)
  | over (m : Mem) (b : Nat)

/-- `(fmt[a] > 47) && (fmt[a] < 58)`. -/
def isDig (c : Byte) : Prop := c.toInt > 47 ∧ c.toInt < 58
instance (c : Byte) : Decidable (isDig c) := inferInstanceAs (Decidable (_ ∧ _))

/-- src/output/vsnprintf.c:41-44: the flag '0'. -/
def fmtZero (m : Mem) (fmt a : Nat) (pad : Byte) : Res (Nat × Byte) := do
  let c ← m.load (fmt + a)
  if c = 48#8 then pure (a + 1, 48#8) else pure (a, pad)

/-- src/output/vsnprintf.c:46-50: the width. -/
def fmtDigits (m : Mem) (fmt a : Nat) (padding : Int) : Res (Nat × Int) := do
  let c ← m.load (fmt + a)
  if isDig c then do
    let p ← ckInt (padding * 10)
    let p ← ckInt (p + (c.toInt - 48))
    fmtDigits m fmt (a + 1) p
  else pure (a, padding)
partial_fixpoint

/-- src/output/vsnprintf.c:150-154: the digits copied to `tmp`, and the position behind them. -/
def groupDigits (m : Mem) (fmt a : Nat) : Res (List Byte × Nat) := do
  let c ← m.load (fmt + a)
  if isDig c then do
    let r ← groupDigits m fmt (a + 1)
    pure (c :: r.1, r.2)
  else pure ([], a)
partial_fixpoint

/-- src/output/vsnprintf.c:146-161: the modifier '('; new `a` and `groups`.  More than 15 digits
overflow `tmp[16]`.  `tmp` is given to `atoi` as an object of its own. -/
def fmtGroup (m : Mem) (fmt a : Nat) (groups : Int) : Res (Nat × Int) := do
  let c ← m.load (fmt + (a + 1))
  if isDig c then do
    let r ← groupDigits m fmt (a + 1)
    if r.1.length < 16 then do
      let g ← atoi (object 1 (r.1 ++ [0#8])) 1
      pure (r.2 - 1, g)
    else .ub
  else pure (a + 1, groups)

/-- src/output/vsnprintf.c:82-83 and the like, for an `int` argument:
`MINI_TEST_OVERRUN(b+need); b = b + conv(va_arg(args,int),&buf[b],…);`. -/
def pfInt (m : Mem) (buf b size need : Nat) (args : List PfArg)
    (f : BitVec 32 → Mem → Nat → Res (Mem × Int)) : Res PfStep :=
  if b + need ≥ size then .ok (.over m b)
  else do
    let v ← vaInt args
    let r ← f v.1 m (buf + b)
    pure (.done r.1 (b + r.2.toNat) v.2)

/-- src/output/vsnprintf.c:70-71 and 89-90: the same for a `long`. -/
def pfLong (m : Mem) (buf b size need : Nat) (args : List PfArg)
    (f : BitVec 64 → Mem → Nat → Res (Mem × Int)) : Res PfStep :=
  if b + need ≥ size then .ok (.over m b)
  else do
    let v ← vaLong args
    let r ← f v.1 m (buf + b)
    pure (.done r.1 (b + r.2.toNat) v.2)

/-- src/output/vsnprintf.c:98-107: the conversion f; the width is the number of decimals, 9 if there is none. -/
def pfDbl (m : Mem) (buf b size : Nat) (args : List PfArg) (padding : Int) : Res PfStep :=
  if b + 27 ≥ size then .ok (.over m b)
  else do
    let v ← vaDbl args
    let r ← dtodec m v.1 (buf + b) (if padding = 0 then 9 else padding)
    pure (.done r.1 (b + r.2.toNat) v.2)

/-- src/output/vsnprintf.c:166-169: `while ( padding > l ){ buf[b] = ' '; b++; l++; }`, with
`n = padding - l` passes. -/
def pfStrPad (m : Mem) (buf b : Nat) : Nat → Res (Mem × Nat)
  | 0 => .ok (m, b)
  | n + 1 => do
    let m ← m.store (buf + b) 32#8
    pfStrPad m buf (b + 1) n

/-- src/output/vsnprintf.c:172-177: copying the string. -/
def pfStrCopy (m : Mem) (buf b size s : Nat) (args : List PfArg) : Res PfStep := do
  let c ← m.load s
  if c ≠ 0#8 then do
    let m ← m.store (buf + b) c
    if b + 1 ≥ size then pure (.over m (b + 1)) else pfStrCopy m buf (b + 1) size (s + 1) args
  else pure (.done m b args)
partial_fixpoint

/-- src/output/vsnprintf.c:162-179: the conversion s. -/
def pfStr (m : Mem) (buf b size : Nat) (args : List PfArg) (padding : Int) : Res PfStep := do
  let s ← vaStr args
  if padding ≠ 0 then do
    let l ← strlen m s.1
    let r ← pfStrPad m buf b (padding - l).toNat
    pfStrCopy r.1 buf r.2 size s.1 s.2
  else pfStrCopy m buf b size s.1 s.2

/-- `buf[b] = x; b++; MINI_TEST_OVERRUN(b);` (src/output/vsnprintf.c:53-56, 181-184, 192-194). -/
def pfChar (m : Mem) (buf b size : Nat) (args : List PfArg) (x : Byte) : Res PfStep := do
  let m ← m.store (buf + b) x
  if b + 1 ≥ size then pure (.over m (b + 1)) else pure (.done m (b + 1) args)

/-- The width given to most conversions: `(padding?padding:1)`. -/
def PfFlags.prec (fl : PfFlags) : Int := if fl.padding ≠ 0 then fl.padding else 1

/-- src/output/vsnprintf.c:51-187: the switch on `c = fmt[a]`.  `junk` are the indeterminate contents of
the local array of `itooct`.  Line 142 goes through the macro `itobin` (src/conversions/itobin.c:46),
which replaces `groups` 0 by 32. -/
def pfSwitch (junk : Nat → Byte) (m : Mem) (fmt a buf b size : Nat) (args : List PfArg) (fl : PfFlags)
    (c : Byte) : Res PfStep :=
  if c = 37#8 then pfChar m buf b size args 37#8
  else if c = 117#8 then
    if fl.mod = false then
      pfInt m buf b size 13 args (fun v m d => uitodec m v.toNat d fl.prec fl.sep fl.pad)
    else pfLong m buf b size 27 args (fun v m d => ultodec m v.toNat d fl.prec fl.sep)
  else if c = 100#8 then
    if fl.mod = false then
      pfInt m buf b size 13 args (fun v m d => itodec m v.toInt d fl.padding fl.sep fl.pad)
    else pfLong m buf b size 27 args (fun v m d => ltodec m v.toInt d fl.prec fl.sep)
  else if c = 102#8 then pfDbl m buf b size args fl.padding
  else if c = 108#8 then .ok (.more a { fl with mod := true })
  else if c = 39#8 then .ok (.more a { fl with sep := 46#8 })
  else if c = 120#8 then pfInt m buf b size 8 args (fun v m d => itohex m v d fl.padding)
  else if c = 88#8 then pfInt m buf b size 8 args (fun v m d => itoHEX m v d fl.padding)
  else if c = 111#8 then pfInt m buf b size 16 args (fun v m d => itooct junk m v.toInt d)
  else if c = 98#8 then pfInt m buf b size 32 args
    (fun v m d => itobin_ m v d fl.prec (if fl.groups ≠ 0 then fl.groups else 32))
  else if c = 40#8 then do
    let r ← fmtGroup m fmt a fl.groups
    pure (.more r.1 { fl with groups := r.2 })
  else if c = 115#8 then pfStr m buf b size args fl.padding
  else if c = 99#8 then do
    let v ← vaInt args
    pfChar m buf b size v.2 (v.1.setWidth 8)
  else .ok (.more a fl)

/-- src/output/vsnprintf.c:39-189: the do-while loop of one conversion; `a` is the position of the '%' or
of the last modifier.  Yields the last step and the position it ended at. -/
def pfConvLoop (junk : Nat → Byte) (m : Mem) (fmt a buf b size : Nat) (args : List PfArg) (fl : PfFlags) :
    Res (PfStep × Nat) := do
  let z ← fmtZero m fmt (a + 1) fl.pad
  let w ← fmtDigits m fmt z.1 fl.padding
  let c ← m.load (fmt + w.1)
  let s ← pfSwitch junk m fmt w.1 buf b size args { fl with pad := z.2, padding := w.2 } c
  match s with
  | .more a' fl' => do
    let c ← m.load (fmt + (a' + 1))
    if c ≠ 0#8 then pfConvLoop junk m fmt a' buf b size args fl'
    else pure (.done m b args, a')
  | s => pure (s, w.1)
partial_fixpoint

/-- src/output/vsnprintf.c:32-195: one element of the format. -/
def pfItem (junk : Nat → Byte) (m : Mem) (fmt a buf b size : Nat) (args : List PfArg) (c : Byte) :
    Res (PfStep × Nat) :=
  if c = 37#8 then pfConvLoop junk m fmt a buf b size args pfInit
  else do
    let s ← pfChar m buf b size args c
    pure (s, a)

/-- src/output/vsnprintf.c:31-205: the main loop and the two exits.  The result: the memory, the return
value, and whether SIGSEGV was raised (after which the function returns only if the signal is handled). -/
def vsnprintfLoop (junk : Nat → Byte) (m : Mem) (fmt a buf b size : Nat) (args : List PfArg) :
    Res (Mem × Int × Bool) := do
  let c ← m.load (fmt + a)
  if c ≠ 0#8 then do
    let r ← pfItem junk m fmt a buf b size args c
    match r.1 with
    | .done m b args => vsnprintfLoop junk m fmt (r.2 + 1) buf b size args
    | .over m b => pure (m, -(b : Int), true)
    | .more _ _ => vsnprintfLoop junk m fmt (r.2 + 1) buf b size args
  else do
    let m ← m.store (buf + b) 0#8
    pure (m, (b : Int), false)
partial_fixpoint

/-- src/output/vsnprintf.c:18-207 `vsnprintf` (and `snprintf`, src/output/snprintf.c:5-11). -/
def vsnprintf (junk : Nat → Byte) (m : Mem) (buf size fmt : Nat) (args : List PfArg) :
    Res (Mem × Int × Bool) :=
  vsnprintfLoop junk m fmt 0 buf 0 size args

end Minilib

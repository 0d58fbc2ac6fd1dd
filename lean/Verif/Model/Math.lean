import Verif.Model.Conv
/-
Models of /repo/src/math (hashes.c, sdbm_hash.c, powers.c, rand.c, srand.c), /repo/src/file/cksum.c and
/repo/include/math.h.
-/

set_option autoImplicit false

namespace Minilib
open Mem

/-- src/math/hashes.c:16-17: `while ((c = *str++)) hash = ((hash << 5) + hash) + c;` (`unsigned long`
arithmetic, bytes read as `unsigned char`). -/
def djb2Loop (m : Mem) (str : Nat) (hash : BitVec 64) : Res (BitVec 64) := do
  let c ← m.load str
  if c = 0#8 then pure hash
  else djb2Loop m (str + 1) (((hash <<< 5) + hash) + c.setWidth 64)
partial_fixpoint

/-- src/math/hashes.c:12-20 `djb2_hash`. -/
def djb2_hash (m : Mem) (str : Nat) : Res (BitVec 64) := djb2Loop m str 5381#64

/-- src/math/sdbm_hash.c:7-8 (hashes.c has the same function). -/
def sdbmLoop (m : Mem) (str : Nat) (hash : BitVec 64) : Res (BitVec 64) := do
  let c ← m.load str
  if c = 0#8 then pure hash
  else sdbmLoop m (str + 1) (c.setWidth 64 + (hash <<< 6) + (hash <<< 16) - hash)
partial_fixpoint

/-- src/math/sdbm_hash.c:3-11 `sdbm_hash`. -/
def sdbm_hash (m : Mem) (str : Nat) : Res (BitVec 64) := sdbmLoop m str 0#64

/-- src/file/cksum.c:10-13, the loop of `djb_cksum` (`*p` is a signed `char`). -/
def djbCkLoop (m : Mem) (p : Nat) (hash : BitVec 32) : Nat → Res (BitVec 32)
  | 0 => .ok hash
  | len + 1 => do
    let c ← m.load p
    djbCkLoop m (p + 1) (((hash <<< 5) + hash) + c.signExtend 32) len

/-- src/file/cksum.c:8-15 `djb_cksum`. -/
def djb_cksum (m : Mem) (p len : Nat) : Res (BitVec 32) := djbCkLoop m p 5381#32 len

/-- src/file/cksum.c:20-28 `bsd_cksumblock`. -/
def bsd_cksumblock (m : Mem) (hash : BitVec 32) (p : Nat) : Nat → Res (BitVec 32)
  | 0 => .ok hash
  | len + 1 => do
    let hash := (hash >>> 1) + ((hash &&& 1#32) <<< 15)
    let c ← m.load p
    let hash := hash + c.signExtend 32
    bsd_cksumblock m (hash &&& 0xffff#32) (p + 1) len

/-- src/file/cksum.c:31-33 `bsd_cksum`. -/
def bsd_cksum (m : Mem) (p len : Nat) : Res (BitVec 32) := bsd_cksumblock m 0#32 p len

/-- src/math/powers.c:39-53 `ipoweriui`; `int` products that do not fit are undefined. -/
def ipoweriui (x : Int) (n : Nat) : Res Int :=
  if n = 0 then .ok 1
  else if n = 1 then .ok x
  else if n % 2 = 1 then do
    let t ← ipoweriui x ((n - 1) / 2)
    let tt ← ckInt (t * t)
    ckInt (tt * x)
  else do
    let t ← ipoweriui x (n / 2)
    ckInt (t * t)
termination_by n
decreasing_by all_goals omega

/-- `a / b` on `int`s: division by zero and INT_MIN / -1 are undefined. -/
def divInt (a b : Int) : Res Int := if b = 0 then .ub else ckInt (a.tdiv b)

/-- `a / b` on `long`s. -/
def divLong (a b : Int) : Res Int := if b = 0 then .ub else ckLong (a.tdiv b)

/-- src/math/powers.c:56-61 `ipoweri`: the exponent is converted to `unsigned int`. -/
def ipoweri (x n : Int) : Res Int :=
  if n > 0 then ipoweriui x n.toNat
  else do
    let p ← ipoweriui x (n % 4294967296).toNat
    divInt 1 p

/-- One xorshift round of src/math/rand.c:15-17 (`mlgl->srand` is an `int`: `>>` copies the sign bit;
`<<` of a signed value is taken as GCC defines it). -/
def xorshift (s : BitVec 32) : BitVec 32 :=
  let s := s ^^^ (s <<< 13)
  let s := s ^^^ (s.sshiftRight 17)
  s ^^^ (s <<< 5)

/-- src/math/rand.c:8-23 `rand`: the new `mlgl->srand` and the result. -/
def rand (s : BitVec 32) : BitVec 32 × BitVec 32 :=
  let s := if s = 0#32 then 1#32 else s
  let s := xorshift s
  let t := s
  let s := xorshift s
  (s, t - 1#32)

/-- src/math/srand.c:5-7 `srand`. -/
def srand (_s i : BitVec 32) : BitVec 32 := i

/-- include/math.h:8-13 `div`: quotient and remainder. -/
def div (numerator denominator : Int) : Res (Int × Int) := do
  let quot ← divInt numerator denominator
  let p ← ckInt (quot * denominator)
  let rem ← ckInt (numerator - p)
  pure (quot, rem)

/-- include/math.h:16-21 `ldiv`. -/
def ldiv (numerator denominator : Int) : Res (Int × Int) := do
  let quot ← divLong numerator denominator
  let p ← ckLong (quot * denominator)
  let rem ← ckLong (numerator - p)
  pure (quot, rem)

/-- include/math.h:25-27 `abs`. -/
def abs (i : Int) : Res Int := if i ≥ 0 then .ok i else ckInt (-i)

/-- include/math.h:30-32 `labs`. -/
def labs (i : Int) : Res Int := if i ≥ 0 then .ok i else ckLong (-i)

end Minilib

import Verif.C.Word
import Verif.C.Int
/-
Models of /repo/src/memory/{memcpy,memmove,memset,memchr,memcmp}.c
-/

set_option autoImplicit false

namespace Minilib
open Mem

/-- src/memory/memcpy.c:6-8, byte loop (`mini_OPTIMIZE` not defined), from counter `a`; also
memcpy.c:27-29. -/
def memcpyLoop (m : Mem) (d s : Nat) (n : Int) (a : Nat) : Res Mem :=
  if (a : Int) < n then do
    let b ← m.load (s + a)
    let m ← m.store (d + a) b
    memcpyLoop m d s n (a + 1)
  else pure m
partial_fixpoint

/-- src/memory/memcpy.c:4-10 `memcpy`, `mini_OPTIMIZE` not defined. -/
def memcpy (m : Mem) (d s : Nat) (n : Int) : Res (Mem × Nat) := do
  let m ← memcpyLoop m d s n 0
  pure (m, d)

/-- src/memory/memcpy.c:17-19 and 22-24: copy `w`-byte words (`long`, `int`) at byte offsets
`a, a+1, …, e-1` (the pointers are `void*`, so the counter is a byte offset).  Alignment of the
accesses is not modelled (amd64 allows unaligned access). -/
def memcpyWide (m : Mem) (d s w : Nat) (e : Int) (a : Nat) : Res (Mem × Nat) :=
  if (a : Int) < e then do
    let l ← m.loadBytes (s + a) w
    let m ← m.storeBytes (d + a) l
    memcpyWide m d s w e (a + 1)
  else pure (m, a)
partial_fixpoint

/-- src/memory/memcpy.c:12-31 `memcpy`, `mini_OPTIMIZE` defined. -/
def memcpyOpt (m : Mem) (d s : Nat) (n : Int) : Res (Mem × Nat) :=
  if n = 0 then pure (m, d) else do
    let (m, a) ← memcpyWide m d s 8 (n / 8) 0
    if (a : Int) = n then pure (m, d) else
      let (m, a) ← memcpyWide m d s 4 (n / 4) a
      if (a : Int) = n then pure (m, d) else
        let m ← memcpyLoop m d s n a
        pure (m, d)

/-- src/memory/memmove.c:10-11 `while(n-- > 0) *d++ = *s++;` with `n` iterations. -/
def memmoveLoop (m : Mem) (d s : Nat) : Nat → Res Mem
  | 0 => pure m
  | n + 1 => do
    let b ← m.load s
    let m ← m.store d b
    memmoveLoop m (d + 1) (s + 1) n

/-- src/memory/memmove.c:4-13 `memmove`. -/
def memmove (m : Mem) (dest src : Nat) (n : Int) : Res (Mem × Nat) := do
  let m ← memmoveLoop m dest src n.toNat
  pure (m, dest)

/-- src/memory/memset.c:7-8 loop. -/
def memsetLoop (m : Mem) (s : Nat) (c : Byte) (n : Int) (a : Nat) : Res Mem :=
  if (a : Int) < n then do
    let m ← m.store (s + a) c
    memsetLoop m s c n (a + 1)
  else pure m
partial_fixpoint

/-- src/memory/memset.c:4-10 `memset`; `(char)c` keeps the low 8 bits. -/
def memset (m : Mem) (s : Nat) (c : Int) (n : Int) : Res (Mem × Nat) := do
  let m ← memsetLoop m s (BitVec.ofInt 8 c) n 0
  pure (m, s)

/-- src/memory/memchr.c:4-7: loop; `*p==c` compares an `unsigned char` with an `int`. -/
def memchrLoop (m : Mem) (p e : Nat) (c : Int) : Res Nat :=
  if p < e then do
    let b ← m.load p
    if (b.toNat : Int) = c then pure p else memchrLoop m (p + 1) e c
  else pure 0
partial_fixpoint

/-- src/memory/memchr.c:2-9 `memchr` (`n` is unsigned). -/
def memchr (m : Mem) (s : Nat) (c : Int) (n : Nat) : Res Nat := memchrLoop m s (s + n) c

/-- src/memory/memcmp.c:11: `while ( (a < len) && (cc1[a]==cc2[a]) ) a++;` -/
def memcmpLoop (m : Mem) (p q : Nat) (len : Int) (a : Nat) : Res Nat :=
  if (a : Int) < len then do
    let x ← m.load (p + a)
    let y ← m.load (q + a)
    if x = y then memcmpLoop m p q len (a + 1) else pure a
  else pure a
partial_fixpoint

/-- src/memory/memcmp.c:4-19 `memcmp`; the bytes are compared as (signed) `char`. -/
def memcmp (m : Mem) (p q : Nat) (len : Int) : Res Int :=
  if len ≤ 0 then pure (-1) else do
    let a ← memcmpLoop m p q (len - 1) 0
    let x ← m.load (p + a)
    let y ← m.load (q + a)
    if x.toInt > y.toInt then pure 1
    else if x.toInt < y.toInt then pure (-1)
    else pure 0

end Minilib

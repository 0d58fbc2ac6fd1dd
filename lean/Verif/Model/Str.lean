import Verif.C.Mem
import Verif.C.Int
/-
Models of /repo/src/string/*.c  (string functions without allocation).

Pointers are addresses (`Nat`), NULL is 0.  A C `char` is a `Byte`; where the code promotes a
`char` to `int` the model uses `Byte.toInt` (plain `char` is signed on amd64) or `.toNat` for
`unsigned char`.
-/

set_option autoImplicit false

namespace Minilib
open Mem

/-! ### strlen, strnlen -/

/-- src/string/strlen.c:10-14, the `while ( str[a] != 0 ) a++` loop (`a` is an `int`). -/
def strlenLoop (m : Mem) (str a : Nat) : Res Nat := do
  let b ← m.load (str + a)
  if b ≠ 0#8 then
    let a ← incInt a
    strlenLoop m str a
  else pure a
partial_fixpoint

/-- src/string/strlen.c:6-15 `strlen`. -/
def strlen (m : Mem) (str : Nat) : Res Nat :=
  if str = 0 then pure 0 else strlenLoop m str 0

/-- src/string/strnlen.c:12-18, loop of `strnlen`. -/
def strnlenLoop (m : Mem) (str : Nat) (max : Int) (a : Nat) : Res Int := do
  let b ← m.load (str + a)
  if b ≠ 0#8 then
    let a ← incInt a
    if (a : Int) ≥ max then pure max else strnlenLoop m str max a
  else pure a
partial_fixpoint

/-- src/string/strnlen.c:8-19 `strnlen`. -/
def strnlen (m : Mem) (str : Nat) (max : Int) : Res Int :=
  if str = 0 then pure 0 else strnlenLoop m str max 0

/-! ### copying -/

/-- src/string/stpcpy.c:5-11 (and strcpy.c:5-7): copy loop; returns the position of the NUL. -/
def stpcpyLoop (m : Mem) (d src : Nat) : Res (Mem × Nat) := do
  let b ← m.load src
  if b ≠ 0#8 then
    let m ← m.store d b
    stpcpyLoop m (d + 1) (src + 1)
  else
    let m ← m.store d 0#8
    pure (m, d)
partial_fixpoint

/-- src/string/stpcpy.c:3-12 `stpcpy`. -/
def stpcpy (m : Mem) (dest src : Nat) : Res (Mem × Nat) := stpcpyLoop m dest src

/-- src/string/strcpy.c:3-9 `strcpy`: same loop, returns `dest`. -/
def strcpy (m : Mem) (dest src : Nat) : Res (Mem × Nat) := do
  let (m, _) ← stpcpyLoop m dest src
  pure (m, dest)

/-- src/string/strcat.c:9-11: `for (i = 0; src[i] != 0; i++) dest[dest_len+i] = src[i]` and the
final NUL.  `i` has type `size_t`. -/
def strcatLoop (m : Mem) (dest dest_len src i : Nat) : Res Mem := do
  let b ← m.load (src + i)
  if b ≠ 0#8 then
    let m ← m.store (dest + (dest_len + i)) b
    strcatLoop m dest dest_len src (i + 1)
  else m.store (dest + (dest_len + i)) 0#8
partial_fixpoint

/-- src/string/strcat.c:5-14 `strcat`. -/
def strcat (m : Mem) (dest src : Nat) : Res (Mem × Nat) := do
  let dest_len ← strlen m dest
  let m ← strcatLoop m dest dest_len src 0
  pure (m, dest)

/-- src/string/strncat.c:7-8: `while ( *d ) d++`. -/
def findEnd (m : Mem) (d : Nat) : Res Nat := do
  let b ← m.load d
  if b ≠ 0#8 then findEnd m (d + 1) else pure d
partial_fixpoint

/-- src/string/strncat.c:9-13: `while( n && ( *d=*src) ){ n--; d++; src++; } *d = 0;`
The loop decreases the unsigned `n`, so it is structural in `n`. -/
def strncatLoop (m : Mem) (d src : Nat) : Nat → Res Mem
  | 0 => m.store d 0#8
  | n + 1 => do
    let b ← m.load src
    let m ← m.store d b
    if b ≠ 0#8 then strncatLoop m (d + 1) (src + 1) n
    else m.store d 0#8

/-- src/string/strncat.c:2-16 `strncat` (`n` is `unsigned int`). -/
def strncat (m : Mem) (dst src n : Nat) : Res (Mem × Nat) :=
  if n = 0 then pure (m, dst) else do
    let d ← findEnd m dst
    let m ← strncatLoop m d src n
    pure (m, dst)

/-- `while ( d<e ) *d++ = 0;` / `for (;a<n;a++) dest[a] = 0;`
(src/string/strncpy.c:14-15, src/string/stpncpy.c:15-17), `k` iterations. -/
def zeroFill (m : Mem) (d : Nat) : Nat → Res Mem
  | 0 => pure m
  | k + 1 => do
    let m ← m.store d 0#8
    zeroFill m (d + 1) k

/-- src/string/strncpy.c:9-16. -/
def strncpyLoop (m : Mem) (dest src : Nat) (n : Int) (a : Nat) : Res Mem := do
  let b ← m.load (src + a)
  if b ≠ 0#8 then
    if (a : Int) ≥ n then pure m
    else
      let m ← m.store (dest + a) b
      let a ← incInt a
      strncpyLoop m dest src n a
  else zeroFill m (dest + a) (n - a).toNat
partial_fixpoint

/-- src/string/strncpy.c:7-17 `strncpy`. -/
def strncpy (m : Mem) (dest src : Nat) (n : Int) : Res (Mem × Nat) := do
  let m ← strncpyLoop m dest src n 0
  pure (m, dest)

/-- src/string/stpncpy.c:9-13 and src/string/stplcpy.c:7-11:
`while ( *src && ( d<e) ){ *d=*src; d++; src++; }`, returns memory and `d`. -/
def copyUntil (m : Mem) (d e src : Nat) : Res (Mem × Nat) := do
  let b ← m.load src
  if b ≠ 0#8 ∧ d < e then
    let m ← m.store d b
    copyUntil m (d + 1) e (src + 1)
  else pure (m, d)
partial_fixpoint

/-- src/string/stpncpy.c:6-20 `stpncpy`.  `size` is an `int`; only `size ≥ 0` is modelled
(`dest+size` is an address). -/
def stpncpy (m : Mem) (dest src size : Nat) : Res (Mem × Nat) := do
  let e := dest + size
  let (m, d) ← copyUntil m dest e src
  let r := d
  let m ← zeroFill m d (e - d)
  pure (m, r)

/-- src/string/stplcpy.c:4-15 `stplcpy` (`size ≥ 0`). -/
def stplcpy (m : Mem) (dest src size : Nat) : Res (Mem × Nat) := do
  let (m, d) ← copyUntil m dest (dest + size) src
  let m ← m.store d 0#8
  pure (m, d)

/-- src/string/strlcpy.c:7-14, the do-while loop at counter `a` (after `a++`).  `dest[n-1]` for
`n ≤ 0` lies below `dest`; the model computes that address in `Int` and calls a negative one
undefined. -/
def strlcpyLoop (m : Mem) (dest src : Nat) (n : Int) (a : Nat) : Res Mem := do
  if (a : Int) ≥ n - 1 then
    let p : Int := dest + (n - 1)
    if p < 0 then .ub else m.store p.toNat 0#8
  else
    let b ← m.load (src + a)
    let m ← m.store (dest + a) b
    let b' ← m.load (src + a)
    if b' ≠ 0#8 then
      let a ← incInt a
      strlcpyLoop m dest src n a
    else pure m
partial_fixpoint

/-- src/string/strlcpy.c:5-17 `strlcpy`. -/
def strlcpy (m : Mem) (dest src : Nat) (n : Int) : Res (Mem × Nat) := do
  let m ← strlcpyLoop m dest src n 0
  pure (m, dest)

/-! ### comparison -/

/-- src/string/strcmp.c:10-18 `_strcmp`: one do-while iteration; `n` is an `int` counted down. -/
def strcmpCore (m : Mem) (s1 s2 : Nat) (n : Int) : Res Int := do
  let b1 ← m.load s1
  let b2 ← m.load s2
  if b1 ≠ b2 then pure ((b1.toNat : Int) - (b2.toNat : Int))
  else if b1 = 0#8 then pure 0
  else
    let n ← decInt n
    if n ≠ 0 then strcmpCore m (s1 + 1) (s2 + 1) n else pure 0
partial_fixpoint

/-- src/string/strcmp.c:36-38 `strcmp`. -/
def strcmp (m : Mem) (c1 c2 : Nat) : Res Int := strcmpCore m c1 c2 (-1)

/-- src/string/strcmp.c:44-50 `strncmp`. -/
def strncmp (m : Mem) (c1 c2 : Nat) (len : Int) : Res Int :=
  if len = 0 then pure 0
  else if len < 0 then pure (-1)
  else strcmpCore m c1 c2 len

/-- include/ctype.h:12 `_tolower(a) ((a)|0x20)` applied to a `char` promoted to `int`. -/
def tolowerChar (b : Byte) : Int := ((b.signExtend 32) ||| 0x20#32).toInt

/-- src/string/strcasecmp.c:5-19 `_strcasecmp`, loop and epilogue. -/
def strcasecmpLoop (m : Mem) (c1 c2 : Nat) (len : Int) (a : Nat) : Res Int := do
  let b1 ← m.load (c1 + a)
  if b1 ≠ 0#8 then
    let b2 ← m.load (c2 + a)
    if b2 ≠ 0#8 ∧ (a : Int) ≠ len then
      if b1 ≠ b2 ∧ tolowerChar b1 > tolowerChar b2 then pure 1
      else if b1 ≠ b2 ∧ tolowerChar b1 < tolowerChar b2 then pure (-1)
      else
        let a ← incInt a
        strcasecmpLoop m c1 c2 len a
    else pure 1
  else
    let b2 ← m.load (c2 + a)
    if b2 = 0#8 then pure 0 else pure 1
partial_fixpoint

/-- src/string/strcasecmp.c:26-28 `strcasecmp`. -/
def strcasecmp (m : Mem) (c1 c2 : Nat) : Res Int := strcasecmpLoop m c1 c2 (-1) 0

/-- src/string/strcasecmp.c:34-38 `strncasecmp`. -/
def strncasecmp (m : Mem) (c1 c2 : Nat) (len : Int) : Res Int :=
  if len ≤ 0 then pure (-1) else strcasecmpLoop m c1 c2 len 0

/-! ### searching -/

/-- src/string/strchrnul.c:3-12 `strchrnul`; `*s==c` compares a signed `char` with an `int`. -/
def strchrnul (m : Mem) (s : Nat) (c : Int) : Res Nat := do
  let b ← m.load s
  if b ≠ 0#8 then
    if b.toInt = c then pure s else strchrnul m (s + 1) c
  else pure s
partial_fixpoint

/-- src/string/strchr.c:6-17 `strchr`. -/
def strchr (m : Mem) (s : Nat) (c : Int) : Res Nat := do
  let ret ← strchrnul m s c
  if c = 0 then pure ret
  else
    let b ← m.load ret
    if b = 0#8 then pure 0 else pure ret

/-- src/string/strrchr.c:7-9, the loop; `tmp + 1` of the C code is `start` here. -/
def strrchrLoop (m : Mem) (start : Nat) (c : Int) (ret : Nat) : Res Nat := do
  let tmp ← strchrnul m start c
  if tmp ≠ 0 then
    let b ← m.load tmp
    if b ≠ 0#8 then strrchrLoop m (tmp + 1) c tmp else pure ret
  else pure ret
partial_fixpoint

/-- src/string/strrchr.c:4-11 `strrchr`. -/
def strrchr (m : Mem) (s : Nat) (c : Int) : Res Nat := strrchrLoop m s c 0

/-- src/string/strcspn.c:22-25: `for ( acc = s2; *acc; acc++ ) if ( *acc == *p ) return …`;
result: does `*acc == c` for some `acc`. -/
def memberOf (m : Mem) (acc : Nat) (c : Byte) : Res Bool := do
  let b ← m.load acc
  if b ≠ 0#8 then
    if b = c then pure true else memberOf m (acc + 1) c
  else pure false
partial_fixpoint

/-- src/string/strcspn.c:18-28, variant without OPTIMIZE. -/
def strcspnLoop (m : Mem) (s1 s2 p : Nat) : Res Nat := do
  let b ← m.load p
  if b ≠ 0#8 then
    let hit ← memberOf m s2 b
    if hit then pure (p - s1) else strcspnLoop m s1 s2 (p + 1)
  else pure (p - s1)
partial_fixpoint

/-- src/string/strcspn.c:6-29 `strcspn`, OPTIMIZE not defined. -/
def strcspn (m : Mem) (s1 s2 : Nat) : Res Nat := strcspnLoop m s1 s2 s1

/-- src/string/strcspn.c:11-14: bit mask of all characters of `s2`. -/
def orMask (m : Mem) (acc : Nat) (bm : Byte) : Res Byte := do
  let b ← m.load acc
  if b ≠ 0#8 then orMask m (acc + 1) (bm ||| b) else pure bm
partial_fixpoint

/-- src/string/strcspn.c:18-28, variant with OPTIMIZE. -/
def strcspnOptLoop (m : Mem) (s1 s2 : Nat) (bm : Byte) (p : Nat) : Res Nat := do
  let b ← m.load p
  if b ≠ 0#8 then
    if b &&& bm ≠ 0#8 then
      let hit ← memberOf m s2 b
      if hit then pure (p - s1) else strcspnOptLoop m s1 s2 bm (p + 1)
    else strcspnOptLoop m s1 s2 bm (p + 1)
  else pure (p - s1)
partial_fixpoint

/-- src/string/strcspn.c:6-29 `strcspn` with OPTIMIZE defined. -/
def strcspnOpt (m : Mem) (s1 s2 : Nat) : Res Nat := do
  let bm ← orMask m s2 0#8
  strcspnOptLoop m s1 s2 bm s1

/-- src/string/strspn.c:6-12, one do-while iteration. -/
def strspnLoop (m : Mem) (s1 s2 p acc : Nat) : Res Nat := do
  let x ← m.load acc
  let y ← m.load p
  let (p, acc) := if x = y then (p + 1, s2) else (p, acc)
  let y ← m.load p
  if y ≠ 0#8 then
    let z ← m.load acc
    if z ≠ 0#8 then strspnLoop m s1 s2 p (acc + 1) else pure (p - s1)
  else pure (p - s1)
partial_fixpoint

/-- src/string/strspn.c:2-13 `strspn`. -/
def strspn (m : Mem) (s1 s2 : Nat) : Res Nat := strspnLoop m s1 s2 s1 s2

/-- src/string/strpbrk.c:2-10 `strpbrk`.  The code passes the pointer `s`, not the character `*s`,
as second argument of `strchrnul` (an `int`). -/
def strpbrk (m : Mem) (s charset : Nat) : Res Nat := do
  let b ← m.load s
  if b ≠ 0#8 then
    let r ← strchrnul m charset (toInt32 s)
    if r ≠ 0 then pure s else strpbrk m (s + 1) charset
  else pure 0
partial_fixpoint

/-- src/string/strstr.c:15-19: inner loop; `true` when the end of `little` is reached. -/
def strstrInner (m : Mem) (s p : Nat) : Res Bool := do
  let p := p + 1
  let s := s + 1
  let bp ← m.load p
  if bp = 0#8 then pure true
  else
    let bs ← m.load s
    if bs = bp then strstrInner m s p else pure false
partial_fixpoint

/-- src/string/strstr.c:11-27: outer loop. -/
def strstrLoop (m : Mem) (little s : Nat) : Res Nat := do
  let bs ← m.load s
  let bp ← m.load little
  let hit ← if bs = bp then strstrInner m s little else pure false
  if hit then pure s
  else
    let s := s + 1
    let b ← m.load s
    if b ≠ 0#8 then strstrLoop m little s else pure 0
partial_fixpoint

/-- src/string/strstr.c:3-28 `strstr`. -/
def strstr (m : Mem) (big little : Nat) : Res Nat := do
  let b ← m.load little
  if b = 0#8 then pure big else strstrLoop m little big

/-! ### strtok -/

/-- src/string/strtok_r.c:13-24: skip leading delimiters.  Returns the first character that is not
a delimiter and the address after it. -/
def strtokSkip (m : Mem) (s delim : Nat) : Res (Byte × Nat) := do
  let c ← m.load s
  let hit ← memberOf m delim c
  if hit then strtokSkip m (s + 1) delim else pure (c, s + 1)
partial_fixpoint

/-- src/string/strtok_r.c:32-42: compare `c` with every byte of `delim` including its NUL. -/
def strtokHit (m : Mem) (spanp : Nat) (c : Byte) : Res Bool := do
  let sc ← m.load spanp
  if sc = c then pure true
  else if sc ≠ 0#8 then strtokHit m (spanp + 1) c else pure false
partial_fixpoint

/-- src/string/strtok_r.c:30-43: scan the token.  Returns memory and the new `*last`. -/
def strtokScan (m : Mem) (s delim : Nat) : Res (Mem × Nat) := do
  let c ← m.load s
  let s := s + 1
  let hit ← strtokHit m delim c
  if hit then
    if c = 0#8 then pure (m, 0)
    else
      let m ← m.store (s - 1) 0#8
      pure (m, s)
  else strtokScan m s delim
partial_fixpoint

/-- src/string/strtok_r.c:2-44 `strtok_r`.  `last` is the value of `*last`; the result is the new
memory, the returned pointer and the new value of `*last`. -/
def strtok_r (m : Mem) (s delim last : Nat) : Res (Mem × Nat × Nat) := do
  let s := if s = 0 then last else s
  if s = 0 then pure (m, 0, last)
  else
    let (c, s) ← strtokSkip m s delim
    if c = 0#8 then pure (m, 0, 0)
    else
      let tok := s - 1
      let (m, last) ← strtokScan m s delim
      pure (m, tok, last)

/-- src/string/strtok.c:3-6 `strtok`: the static `last` is passed and returned explicitly. -/
def strtok (m : Mem) (s delim last : Nat) : Res (Mem × Nat × Nat) := strtok_r m s delim last

/-- The documented way to use src/string/strtok_r.c:2-44: call it with the string, then with NULL
until it returns NULL.  Result: final memory and the pointers returned.  (Client program, not code
of the library.) -/
def strtokAll (m : Mem) (s delim last : Nat) : Res (Mem × List Nat) := do
  let (m, tok, last) ← strtok_r m s delim last
  if tok = 0 then pure (m, [])
  else
    let (m, toks) ← strtokAll m 0 delim last
    pure (m, tok :: toks)
partial_fixpoint

end Minilib

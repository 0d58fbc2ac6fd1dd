import Verif.Model.ErrTable
import Verif.C.Word
import Verif.C.Int
/-
Models of the macros of /repo/include/ctype.h, /repo/include/globaldefs.h (FD_SET and friends, wait
status), /repo/macros/alignment.h, and of /repo/src/process/sigaction.c, /repo/src/string/strerror.c,
/repo/src/process/errno_str.c, /repo/include/errstr.h, errstr2.h.
-/

set_option autoImplicit false

namespace Minilib
open Mem

/-! ### ctype: the argument is an `int` given by its 32 bits -/

/-- include/ctype.h:4 `_isalpha`. -/
def isalpha (a : BitVec 32) : Bool := ((a ||| 32#32) - 97#32).toNat < 26
/-- include/ctype.h:5 `_isdigit`. -/
def isdigit (a : BitVec 32) : Bool := (a - 48#32).toNat < 10
/-- include/ctype.h:6 `_islower`. -/
def islower (a : BitVec 32) : Bool := (a - 97#32).toNat < 26
/-- include/ctype.h:7 `_isupper`. -/
def isupper (a : BitVec 32) : Bool := (a - 65#32).toNat < 26
/-- include/ctype.h:8 `_isprint`. -/
def isprint (a : BitVec 32) : Bool := (a - 0x20#32).toNat < 0x5f
/-- include/ctype.h:9 `_isgraph`. -/
def isgraph (a : BitVec 32) : Bool := (a - 0x21#32).toNat < 0x5e
/-- include/ctype.h:10 `_isspace`. -/
def isspace (a : BitVec 32) : Bool :=
  a = 32#32 || a = 9#32 || a = 10#32 || a = 12#32 || a = 13#32 || a = 11#32
/-- include/ctype.h:11 `_isalnum`. -/
def isalnum (a : BitVec 32) : Bool := isalpha a || isdigit a
/-- include/ctype.h:12 `_tolower`. -/
def tolower (a : BitVec 32) : BitVec 32 := a ||| 0x20#32
/-- include/ctype.h:13 `_toupper`. -/
def toupper (a : BitVec 32) : BitVec 32 := a &&& 0x5f#32
/-- include/ctype.h:14 `_isascii`. -/
def isascii (a : BitVec 32) : Bool := a.toNat < 128
/-- include/ctype.h:15 `_isblank`. -/
def isblank (a : BitVec 32) : Bool := a = 32#32 || a = 9#32
/-- include/ctype.h:16 `_iscntrl` (a signed comparison). -/
def iscntrl (a : BitVec 32) : Bool := a.toInt < 0x20 || a = 0x7f#32
/-- include/ctype.h:17 `_ispunct`. -/
def ispunct (a : BitVec 32) : Bool := isgraph a || isalnum a
/-- include/ctype.h:18 `_isxdigit`. -/
def isxdigit (a : BitVec 32) : Bool := isdigit a || ((a ||| 32#32) - 97#32).toNat < 6

/-! ### fd_set -/

/-- include/globaldefs.h:220-227 `fd_set`: 16 unsigned longs. -/
abbrev FdSet := List (BitVec 64)

/-- include/globaldefs.h:229 `FD_ZERO` (16 words are cleared, whatever they were). -/
def FD_ZERO (s : FdSet) : Res FdSet := if s.length = 16 then .ok (List.replicate 16 0#64) else .ub

/-- include/globaldefs.h:230 `FD_SET`; `d` after conversion to `unsigned long`, an index outside the
array is undefined. -/
def FD_SET (d : Nat) (s : FdSet) : Res FdSet :=
  if h : d / 64 < s.length then .ok (s.set (d / 64) (s[d / 64] ||| (1#64 <<< (d % 64)))) else .ub

/-- include/globaldefs.h:231 `FD_CLR`. -/
def FD_CLR (d : Nat) (s : FdSet) : Res FdSet :=
  if h : d / 64 < s.length then .ok (s.set (d / 64) (s[d / 64] &&& ~~~(1#64 <<< (d % 64)))) else .ub

/-- include/globaldefs.h:232 `FD_ISSET`. -/
def FD_ISSET (d : Nat) (s : FdSet) : Res Bool :=
  if h : d / 64 < s.length then .ok ((s[d / 64] &&& (1#64 <<< (d % 64))) ≠ 0#64) else .ub

/-! ### wait status; the status is a non-negative `int` -/

/-- include/globaldefs.h:252 `WEXITSTATUS`. -/
def WEXITSTATUS (s : Nat) : Nat := (s &&& 0xff00) >>> 8
/-- include/globaldefs.h:253 `WTERMSIG`. -/
def WTERMSIG (s : Nat) : Nat := s &&& 0x7f
/-- include/globaldefs.h:254 `WSTOPSIG`. -/
def WSTOPSIG (s : Nat) : Nat := WEXITSTATUS s
/-- include/globaldefs.h:255 `WCOREDUMP` (as a truth value). -/
def WCOREDUMP (s : Nat) : Bool := s &&& 0x80 ≠ 0
/-- include/globaldefs.h:256 `WIFEXITED`. -/
def WIFEXITED (s : Nat) : Bool := WTERMSIG s = 0
/-- include/globaldefs.h:257 `WIFSTOPPED`: the product is an `int` product; the shift and the
conversion to `short` follow. -/
def WIFSTOPPED (s : Nat) : Res Bool := do
  let p ← ckInt (((s &&& 0xffff) * 0x10001 : Nat) : Int)
  pure (decide (Int.bmod (p / 256) 65536 > 0x7f00))
/-- include/globaldefs.h:258 `WIFSIGNALED` (unsigned arithmetic). -/
def WIFSIGNALED (s : Nat) : Bool := (BitVec.ofNat 32 (s &&& 0xffff) - 1#32).toNat < 0xff
/-- include/globaldefs.h:259 `WIFCONTINUED`. -/
def WIFCONTINUED (s : Nat) : Bool := s = 0xffff

/-! ### alignment -/

/-- macros/alignment.h:18 `__ALIGN(shift,base,p)` on 64 bit numbers (the new value of `p`). -/
def alignWith (shift base : Nat) (p : BitVec 64) : BitVec 64 :=
  (((p - 1#64) >>> shift) <<< shift) + BitVec.ofNat 64 base

/-- macros/alignment.h:23-30 `ALIGN_2` … `ALIGN_256`: shift `k` and base `2^k`. -/
def alignPow (k : Nat) (p : BitVec 64) : BitVec 64 := alignWith k (2 ^ k) p

/-- macros/alignment.h:19,31 `ALIGN_P`: `_ALIGN(8,p)`, which uses 8 both as shift and as base. -/
def ALIGN_P (p : BitVec 64) : BitVec 64 := alignWith 8 8 p

/-! ### signal sets: the 64 bits of `set->sig` -/

/-- src/process/sigaction.c:7-16 `sigemptyset`. -/
def sigemptyset (_set : BitVec 64) : BitVec 64 × Int := (0#64, 0)

/-- src/process/sigaction.c:20-30 `sigfillset`. -/
def sigfillset (_set : BitVec 64) : BitVec 64 × Int := (0x7FFFFFFF#64, 0)

/-- `1<<s` of an `int` with an unsigned `s`, converted to `unsigned long`: shifting by 31 or more is
undefined. -/
def intBit (s : Nat) : Res (BitVec 64) := if s < 31 then .ok (1#64 <<< s) else .ub

/-- src/process/sigaction.c:34-48 `sigaddset` (`_NSIG` is 32, headers/common/bits/signal.h:16);
`s = sig-1` is an `unsigned`. -/
def sigaddset (set : BitVec 64) (sig : Int) : Res (BitVec 64 × Int) :=
  if sig ≥ 31 ∨ sig < 0 then .ok (set, -1)
  else do
    let b ← intBit ((sig - 1) % 4294967296).toNat
    pure (set ||| b, 0)

/-- src/process/sigaction.c:68-82 `sigdelset`. -/
def sigdelset (set : BitVec 64) (sig : Int) : Res (BitVec 64 × Int) :=
  if sig ≥ 31 ∨ sig < 0 then .ok (set, -1)
  else do
    let b ← intBit ((sig - 1) % 4294967296).toNat
    pure (set &&& ~~~b, 0)

/-- src/process/sigaction.c:85-100 `sigismember` (the result is converted to `int`). -/
def sigismember (set : BitVec 64) (sig : Int) : Res Int :=
  if sig ≥ 31 ∨ sig < 0 then .ok (-1)
  else do
    let b ← intBit ((sig - 1) % 4294967296).toNat
    pure ((set &&& b).setWidth 32).toInt

/-! ### error texts -/

/-- src/string/strerror.c:10: the initial text with its NUL. -/
def strerrorMsg : List Byte := textBytes "Error, errno: 000" ++ [0#8]

/-- `errstr[i] += v` on a `char`. -/
def addChar (m : Mem) (a : Nat) (v : Int) : Res Mem := do
  let b ← m.load a
  m.store a (b + BitVec.ofInt 8 v)

/-- src/string/strerror.c:7-30 `strerror` without verbose texts; `errstr` is the address of the static
buffer.  The copying loop of line 11 is modelled as storing the 18 bytes in order. -/
def strerror (m : Mem) (errstr : Nat) (errnum : Int) : Res (Mem × Nat) := do
  let m ← storeBytes m errstr strerrorMsg
  let m ← addChar m (errstr + 14) (errnum.tdiv 100)
  let m ← addChar m (errstr + 15) ((errnum.tmod 100).tdiv 10)
  let m ← addChar m (errstr + 16) ((errnum.tmod 100).tmod 10)
  pure (m, errstr)

/-- src/process/errno_str.c:12-18: the absolute value, and the offset of the result. -/
def errnoLead (err : Int) : Res (Int × Nat) := do
  let err ← (if err < 0 then ckInt (-err) else pure err)
  if err > 99 then pure (err - 100, 0) else pure (err, 1)

/-- src/process/errno_str.c:7-26 `errno_str`; `e` is the address of the static buffer. -/
def errno_str (m : Mem) (e : Nat) (err : Int) : Res (Mem × Nat) := do
  let r ← errnoLead err
  let m ← m.store e 49#8
  let m ← m.store (e + 1) (BitVec.ofInt 8 (r.1.tdiv 10 + 48))
  let m ← m.store (e + 2) (BitVec.ofInt 8 (r.1.tmod 10 + 48))
  let m ← m.store (e + 3) 0#8
  let m ← m.store (e + 4) 0#8
  pure (m, e + r.2)

/-- include/errstr.h:10-151 `verbose_errstr`: the text. -/
def verbose_errstr (num : Int) : List Byte :=
  if num > 133 ∨ num < 0 then textBytes "Errno unknown" else errTable.getD num.toNat []

/-- include/errstr2.h:153-155: `do { c++; } while (*c != 0);`. -/
def errSkip (m : Mem) (c : Nat) : Res Nat := do
  let b ← m.load (c + 1)
  if b ≠ 0#8 then errSkip m (c + 1) else pure (c + 1)
partial_fixpoint

/-- include/errstr2.h:152-156: skip `num` texts. -/
def errWalk (m : Mem) (c : Nat) : Nat → Res Nat
  | 0 => .ok c
  | num + 1 => do
    let c ← errSkip m c
    errWalk m c num

/-- include/errstr2.h:11-159 `verbose_errstr2`: the address of the text; `unknown` and `errstr` are the
addresses of the two string literals. -/
def verbose_errstr2 (m : Mem) (unknown errstr : Nat) (num : Int) : Res Nat :=
  if num > 133 ∨ num < 0 then .ok unknown
  else do
    let c ← errWalk m errstr num.toNat
    pure (c + 1)

end Minilib

import Verif.C.Word
import Verif.C.Int
/-
Models of the wrappers of system calls: /repo/include/syscall.h (REAL_define_syscall, REAL_define_syscallret), /repo/include/lseek.h,
/repo/include/syscall_stubs.h (lseek, ftruncate, mprotect).
-/

set_option autoImplicit false

namespace Minilib
open Mem

/-- include/syscall.h:198-206 (`useErrno`, with errno) and 220-225 (without) `REAL_define_syscall`: `r` is what the kernel leaves in `rax`,
`sysret` an `int`.  The result of the wrapper and `errno`. -/
def sysWrap (useErrno : Bool) (r : BitVec 64) (errno : Int) : Res (Int × Int) :=
  let sysret : Int := (r.setWidth 32).toInt
  if useErrno then
    if sysret < 0 then do
      let e ← ckInt (-sysret)
      pure (-1, e)
    else pure (sysret, errno)
  else pure (sysret, errno)

/-- A file as lseek and ftruncate see it. -/
structure FilePos where
  pos : Nat
  size : Nat
  deriving DecidableEq

/-- The system call lseek(2): EINVAL (22) for an unknown origin or a negative position. -/
def kLseek (f : FilePos) (off : Int) (whence : Int) : FilePos × BitVec 64 :=
  let base : Option Int := if whence = 0 then some 0 else if whence = 1 then some f.pos else if whence = 2 then some f.size else none
  match base with
  | none => (f, BitVec.ofInt 64 (-22))
  | some b => if b + off < 0 ∨ 9223372036854775807 < b + off then (f, BitVec.ofInt 64 (-22)) else ({ f with pos := (b + off).toNat }, BitVec.ofInt 64 (b + off))

/-- The value an asm operand of 32 bits has in its 64 bit register: the compiler leaves the upper half `hi` to whatever is in it. -/
def inRegister (hi : BitVec 32) (x : BitVec 32) : BitVec 64 := hi ++ x

/-- include/lseek.h:19, include/syscall_stubs.h:665 `lseek(unsigned int, int, int)`; the argument has been converted to `int`. -/
def lseek (useErrno : Bool) (hi : BitVec 32) (f : FilePos) (off : Int) (whence : Int) (errno : Int) : Res (FilePos × Int × Int) := do
  let k := kLseek f (inRegister hi (BitVec.ofInt 32 off)).toInt whence
  let r ← sysWrap useErrno k.2 errno
  pure (k.1, r.1, r.2)

/-- include/lseek.h:21, include/syscall_stubs.h:320 `ftruncate(unsigned int, unsigned int)`; the length has been converted to `unsigned int`.
The kernel refuses lengths that are no `loff_t` (EINVAL). -/
def ftruncate (useErrno : Bool) (hi : BitVec 32) (f : FilePos) (len : Nat) (errno : Int) : Res (FilePos × Int × Int) := do
  let n : BitVec 64 := inRegister hi (BitVec.ofNat 32 len)
  let k : FilePos × BitVec 64 := if n.toInt < 0 then (f, BitVec.ofInt 64 (-22)) else ({ f with size := n.toNat }, 0#64)
  let r ← sysWrap useErrno k.2 errno
  pure (k.1, r.1, r.2)

/-- The system call mprotect(2): `r` is its answer; with PROT_NONE (0) the pages of 4096 bytes around the range can not be read any more. -/
def kMprotect (m : Mem) (a len prot : Nat) (r : BitVec 64) : Mem :=
  if r = 0#64 ∧ prot = 0 then fun x => if a ≤ x ∧ x < a + (len + 4095) / 4096 * 4096 then none else m x else m

/-- include/syscall.h:303-311 `REAL_define_syscallret` with include/syscall_stubs.h:470 `mprotect`: the wrapper returns `*a1`, of type
`unsigned long`, as an `int`. -/
def mprotect (m : Mem) (a len prot : Nat) (r : BitVec 64) (errno : Int) : Res (Mem × Int × Int) :=
  let m := kMprotect m a len prot r
  let sysret : Int := (r.setWidth 32).toInt
  if sysret < 0 then do
    let e ← ckInt (-sysret)
    pure (m, -1, e)
  else do
    let w ← m.loadW a
    let _ ← m.loadW (a + 4)
    pure (m, w.toInt, errno)

end Minilib

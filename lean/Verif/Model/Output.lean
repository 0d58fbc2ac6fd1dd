import Verif.Model.Printf
import Verif.Model.Malloc
/-
Output to descriptors and the small formatters: write, fputs, dprints, fprintfs, snprintfs, dprintf,
fprintf (/repo/src/output, /repo/include/fputs.h).

The kernel is an arbitrary function: it sees what was written so far, the descriptor and the bytes
offered, and answers with a negative number (error) or with the number of bytes it took.
-/

set_option autoImplicit false

namespace Minilib
open Mem

/-- Everything the kernel took so far: descriptor and bytes of every call of `write`, oldest first. -/
abbrev Writes := List (Int × List Byte)

/-- The answers of the kernel to `write`. -/
abbrev WKernel := Writes → Int → List Byte → Int

/-- The system call `write` (include/syscall_stubs.h:105; result and count are `int`): the answer of the kernel, at most the number of bytes
offered; a prefix of that length is taken. -/
def sysWrite (K : WKernel) (w : Writes) (fd : Int) (l : List Byte) : Writes × Int :=
  (w ++ [(fd, l.take (min (K w fd l) l.length).toNat)], min (K w fd l) l.length)

/-- `write(fd, p, n)` with the `n` bytes at `p`.  Simplification: bytes outside of every object make the
call undefined (the kernel would answer EFAULT or take fewer bytes). -/
def kwrite (K : WKernel) (m : Mem) (w : Writes) (fd : Int) (p n : Nat) : Res (Writes × Int) := do
  let l ← m.loadBytes p n
  pure (sysWrite K w fd l)

/-- include/fputs.h:18-20 `fputs`; `fd` is `fileno(F)`. -/
def fputs (K : WKernel) (m : Mem) (w : Writes) (c : Nat) (fd : Int) : Res (Writes × Int) := do
  let n ← strlen m c
  kwrite K m w fd c n

/-- src/output/dprints.c:20-27: the loop of `dprints`; `args` are the pointers after `msg`.  The inner
loop (lines 21-24) is the loop of `strlen`. -/
def dprintsLoop (K : WKernel) (m : Mem) (fd : Int) : Nat → List Nat → Writes → Int → Res (Writes × Int)
  | _, [], _, _ => .ub
  | msg, next :: args, w, ret => do
    let a ← strlenLoop m msg 0
    let r ← kwrite K m w fd msg a
    let ret ← ckInt (ret + r.2)
    if next = 0 then pure (r.1, ret) else dprintsLoop K m fd next args r.1 ret

/-- src/output/dprints.c:14-30 `dprints`: the strings at `msg` and `args`, up to a null pointer.  A missing
null pointer is undefined. -/
def dprints (K : WKernel) (m : Mem) (w : Writes) (fd : Int) (msg : Nat) (args : List Nat) : Res (Writes × Int) :=
  dprintsLoop K m fd msg args w 0

/-- src/output/fprintfs.c:18-37: the loop of `fprintfs` and the last `write`; `a` and `p` are modelled
without the bound of `int`. -/
def fprintfsLoop (K : WKernel) (m : Mem) (fd : Int) (fmt a p : Nat) (args : List PfArg) (w : Writes) (ret : Int) :
    Res (Writes × Int) := do
  let c ← m.load (fmt + a)
  if c ≠ 0#8 then
    if c = 37#8 then do
      let c ← m.load (fmt + (a + 1))
      if c = 115#8 then do
        let r ← kwrite K m w fd (fmt + p) (a - p)
        let ret ← ckInt (ret + r.2)
        let s ← vaStr args
        let q ← fputs K m r.1 s.1 fd
        let ret ← ckInt (ret + q.2)
        fprintfsLoop K m fd fmt (a + 2) (a + 2) s.2 q.1 ret
      else if c = 99#8 then do
        let r ← kwrite K m w fd (fmt + p) (a - p)
        let ret ← ckInt (ret + r.2)
        let v ← vaInt args
        let q := sysWrite K r.1 fd [v.1.setWidth 8]
        let ret ← ckInt (ret + q.2)
        fprintfsLoop K m fd fmt (a + 2) (a + 2) v.2 q.1 ret
      else fprintfsLoop K m fd fmt (a + 2) p args w ret
    else fprintfsLoop K m fd fmt (a + 1) p args w ret
  else do
    let r ← kwrite K m w fd (fmt + p) (a - p)
    let ret ← ckInt (ret + r.2)
    pure (r.1, ret)
partial_fixpoint

/-- src/output/fprintfs.c:8-42 `fprintfs`; `fd` is `fileno(F)`. -/
def fprintfs (K : WKernel) (m : Mem) (w : Writes) (fd : Int) (fmt : Nat) (args : List PfArg) : Res (Writes × Int) :=
  fprintfsLoop K m fd fmt 0 0 args w 0

/-- src/output/snprintfs.c:18-36: the loop of `snprintfs`; yields memory and `p`. -/
def snprintfsLoop (m : Mem) (fmt a p e : Nat) (args : List PfArg) : Res (Mem × Nat) := do
  let c ← m.load (fmt + a)
  if c ≠ 0#8 ∧ p < e then
    if c = 37#8 then do
      let c ← m.load (fmt + (a + 1))
      if c = 115#8 then do
        let s ← vaStr args
        let r ← stpncpy m p s.1 (e - p)
        snprintfsLoop r.1 fmt (a + 2) r.2 e s.2
      else if c = 99#8 then do
        let v ← vaInt args
        let m ← m.store p (v.1.setWidth 8)
        snprintfsLoop m fmt (a + 2) (p + 1) e v.2
      else snprintfsLoop m fmt (a + 2) p e args
    else do
      let m ← m.store p c
      snprintfsLoop m fmt (a + 1) (p + 1) e args
  else pure (m, p)
partial_fixpoint

/-- src/output/snprintfs.c:8-41 `snprintfs` (`size ≥ 0`). -/
def snprintfs (m : Mem) (buf size fmt : Nat) (args : List PfArg) : Res (Mem × Int) := do
  let r ← snprintfsLoop m fmt 0 buf (buf + size) args
  let m ← r.1.store r.2 0#8
  pure (m, (r.2 : Int) - buf)

/-- How a formatted print ends: it returns, or the process ends (by the signal SIGSEGV raised in
`vsnprintf`, or by `exit`). -/
inductive Ending where
  | ret (v : Int)
  | ended
  deriving DecidableEq, Repr

/-- "Buffer Overrun.\n" (src/output/dprintf.c:10). -/
def overrunText : List Byte :=
  [66#8, 117#8, 102#8, 102#8, 101#8, 114#8, 32#8, 79#8, 118#8, 101#8, 114#8, 114#8, 117#8, 110#8, 46#8, 10#8]

/-- src/output/dprintf.c:5-16 `dprintf`: the rest of the arena is the buffer.  `handled` says whether the
program survives SIGSEGV. -/
def dprintf (K : WKernel) (junk : Nat → Byte) (handled : Bool) (A : Arena) (h : Heap) (w : Writes) (fd : Int)
    (fmt : Nat) (args : List PfArg) : Res (Heap × Writes × Ending) := do
  let r ← vsnprintf junk h.mem A.base h.mbufsize.toNat fmt args
  if r.2.2 = true ∧ handled = false then pure (⟨r.1, h.mbufsize⟩, w, .ended)
  else if r.2.1 < 0 then pure (⟨r.1, h.mbufsize⟩, (sysWrite K w 2 overrunText).1, .ended)
  else do
    let q ← kwrite K r.1 w fd A.base r.2.1.toNat
    pure (⟨r.1, h.mbufsize⟩, q.1, .ret r.2.1)

/-- src/output/fprintf.c:32, the macro `fprintf` (and `printf`): its value is that of `write`.  A negative
count is undefined here. -/
def fprintf (K : WKernel) (junk : Nat → Byte) (handled : Bool) (A : Arena) (h : Heap) (w : Writes) (fd : Int)
    (fmt : Nat) (args : List PfArg) : Res (Heap × Writes × Ending) := do
  let r ← vsnprintf junk h.mem A.base h.mbufsize.toNat fmt args
  if r.2.2 = true ∧ handled = false then pure (⟨r.1, h.mbufsize⟩, w, .ended)
  else if r.2.1 < 0 then .ub
  else do
    let q ← kwrite K r.1 w fd A.base r.2.1.toNat
    pure (⟨r.1, h.mbufsize⟩, q.1, .ret q.2)

/-- include/mini_fstream.h:89, the macro `vfprintf`: its arguments are those of `fprintf`. -/
def vfprintf (K : WKernel) (junk : Nat → Byte) (handled : Bool) (A : Arena) (h : Heap) (w : Writes) (fd : Int)
    (fmt : Nat) (args : List PfArg) : Res (Heap × Writes × Ending) := fprintf K junk handled A h w fd fmt args

end Minilib

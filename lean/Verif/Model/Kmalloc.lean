import Verif.Model.Brk
import Verif.Model.MemFn
/-
Model of /repo/contrib/kmalloc/kmalloc.c (kmalloc, kcalloc, morecore, kfree, kmalloc_usable_size, krealloc, findbucket), compiled with MLIB and
without RCHECK, MSTATS and DEBUG, on top of `sbrk` (Model/Brk).

`union overhead` has 8 bytes: a pointer when the block is free; byte 0 the magic number and byte 1 the bucket when in use.  The functions are
defined without prototypes: a `size_t` given to `kmalloc(int)` is taken to be cut to 32 bits.
-/

set_option autoImplicit false

namespace Minilib
open Mem

/-- The 8 bytes of a pointer. -/
def ptrBytes (p : Nat) : List Byte :=
  [BitVec.ofNat 8 p, BitVec.ofNat 8 (p / 256), BitVec.ofNat 8 (p / 65536), BitVec.ofNat 8 (p / 16777216), BitVec.ofNat 8 (p / 4294967296),
    BitVec.ofNat 8 (p / 1099511627776), BitVec.ofNat 8 (p / 281474976710656), BitVec.ofNat 8 (p / 72057594037927936)]

/-- The pointer made of 8 bytes. -/
def bytesPtr (l : List Byte) : Nat := l.foldr (fun b n => b.toNat + 256 * n) 0

/-- `op->ov_next`, contrib/kmalloc/kmalloc.c:96. -/
def loadP (m : Mem) (a : Nat) : Res Nat := do
  let l ← m.loadBytes a 8
  pure (bytesPtr l)

/-- `op->ov_next = p`. -/
def storeP (m : Mem) (a p : Nat) : Res Mem := m.storeBytes a (ptrBytes p)

/-- contrib/kmalloc/kmalloc.c:127-131: the heads of the free lists, page size and its bucket; and the data segment. -/
structure KSt where
  b : BrkSt
  nextf : Nat → Nat
  pagesz : Nat
  pagebucket : Nat

/-- The memory. -/
abbrev KSt.mem (s : KSt) : Mem := s.b.heap.mem

/-- The state with another memory. -/
def KSt.setMem (s : KSt) (m : Mem) : KSt := { s with b := { s.b with heap := ⟨m, s.b.heap.mbufsize⟩ } }

/-- The state at the start of the program. -/
def KSt.init (K : BrkK) (h : Heap) : KSt := ⟨BrkSt.init K h, fun _ => 0, 0, 0⟩

/-- contrib/kmalloc/kmalloc.c:127 `nextf[i]`. -/
def kHead (s : KSt) (i : Nat) : Res Nat := if i < 30 then .ok (s.nextf i) else .ub

/-- `nextf[i] = p`. -/
def kSetHead (s : KSt) (i p : Nat) : Res KSt := if i < 30 then .ok { s with nextf := fun j => if j = i then p else s.nextf j } else .ub

/-- contrib/kmalloc/kmalloc.c:186-191: the bucket of pages. -/
def kPages (pagesz amt bucket : Nat) : Res Nat :=
  if amt < pagesz then kPages pagesz (amt * 2 % 4294967296) (bucket + 1) else pure bucket
partial_fixpoint

/-- contrib/kmalloc/kmalloc.c:175-193: set up the page size and align the break; `false` when that fails. -/
def kInit (K : BrkK) (s : KSt) : Res (KSt × Bool) :=
  if s.pagesz = 0 then do
    let s := { s with pagesz := 4096 }
    let r ← sbrk K s.b 0
    let s := { s with b := r.1 }
    let n : Int := 4096 - 8 - r.2 % 4096
    let n := if n < 0 then n + 4096 else n
    if n ≠ 0 then do
      let r ← sbrk K s.b n
      let s := { s with b := r.1 }
      if r.2 = -1 then pure (s, false)
      else do
        let k ← kPages 4096 8 0
        pure ({ s with pagebucket := k }, true)
    else do
      let k ← kPages 4096 8 0
      pure ({ s with pagebucket := k }, true)
  else pure (s, true)

/-- contrib/kmalloc/kmalloc.c:212-218: the loop; `none` for `return NULL`. -/
def kFit (nbytes n : Int) (amt bucket : Nat) : Res (Option Nat) :=
  if (amt : Int) + n < nbytes then
    if amt * 2 % 4294967296 = 0 then pure none else kFit nbytes n (amt * 2 % 4294967296) (bucket + 1)
  else pure (some bucket)
partial_fixpoint

/-- contrib/kmalloc/kmalloc.c:199-218: the bucket of a request. -/
def kBucket (s : KSt) (nbytes : Int) : Res (Option Nat) :=
  if nbytes ≤ (s.pagesz : Int) - 8 then kFit nbytes (-8) 8 0 else kFit nbytes ((s.pagesz : Int) - 8) s.pagesz s.pagebucket

/-- contrib/kmalloc/kmalloc.c:295-298: `n` further blocks are linked behind `op`. -/
def kLink (m : Mem) (op sz : Nat) : Nat → Res Mem
  | 0 => pure m
  | n + 1 => do
    let m ← storeP m op (op + sz)
    kLink m (op + sz) sz n

/-- contrib/kmalloc/kmalloc.c:259-299 `morecore`; `1 << 31` is taken to be the most negative `int`, as the test `sz <= 0` expects. -/
def morecore (K : BrkK) (s : KSt) (bucket : Nat) : Res KSt :=
  if 32 ≤ bucket + 3 then .ub
  else if bucket + 3 = 31 then pure s
  else do
    let sz := 2 ^ (bucket + 3)
    let amt := if sz < s.pagesz then s.pagesz else sz + s.pagesz
    let nblks := if sz < s.pagesz then amt / sz else 1
    let r ← sbrk K s.b (amt : Nat)
    let s := { s with b := r.1 }
    if r.2 = -1 then pure s
    else do
      let s ← kSetHead s bucket r.2.toNat
      let m ← kLink s.mem r.2.toNat sz (nblks - 1)
      pure (s.setMem m)

/-- contrib/kmalloc/kmalloc.c:223-245: take the first block of the bucket. -/
def kTake (K : BrkK) (s : KSt) (bucket : Nat) : Res (KSt × Nat) := do
  let op ← kHead s bucket
  let s ← (if op = 0 then morecore K s bucket else pure s)
  let op ← kHead s bucket
  if op = 0 then pure (s, 0)
  else do
    let nx ← loadP s.mem op
    let s ← kSetHead s bucket nx
    let m ← s.mem.store op 0xef#8
    let m ← m.store (op + 1) (BitVec.ofNat 8 bucket)
    pure (s.setMem m, op + 8)

/-- contrib/kmalloc/kmalloc.c:163-246 `kmalloc`. -/
def kmalloc (K : BrkK) (s : KSt) (nbytes : Int) : Res (KSt × Nat) := do
  let r ← kInit K s
  if r.2 then do
    let k ← kBucket r.1 nbytes
    match k with
    | none => pure (r.1, 0)
    | some k => kTake K r.1 k
  else pure (r.1, 0)

/-- A `size_t` given as an `int`. -/
def cutInt (n : Int) : Int := (BitVec.ofInt 32 n).toInt

/-- contrib/kmalloc/kmalloc.c:248-253 `kcalloc`; `size_t` is `long`. -/
def kcalloc (K : BrkK) (s : KSt) (nelem elsize : Int) : Res (KSt × Nat) := do
  let n ← ckLong (nelem * elsize)
  let r ← kmalloc K s (cutInt n)
  let t ← memset r.1.mem r.2 0 n
  pure (r.1.setMem t.1, r.2)

/-- contrib/kmalloc/kmalloc.c:304-331 `kfree`. -/
def kfree (s : KSt) (cp : Nat) : Res KSt :=
  if cp = 0 then pure s
  else if cp < 8 then .ub
  else do
    let mg ← s.mem.load (cp - 8)
    if mg ≠ 0xef#8 then pure s
    else do
      let ix ← s.mem.load (cp - 8 + 1)
      let hd ← kHead s ix.toNat
      let m ← storeP s.mem (cp - 8) hd
      kSetHead (s.setMem m) ix.toNat (cp - 8)

/-- contrib/kmalloc/kmalloc.c:336-354 `kmalloc_usable_size`. -/
def kmallocUsableSize (s : KSt) (cp : Nat) : Res Nat :=
  if cp = 0 then pure 0
  else if cp < 8 then .ub
  else do
    let mg ← s.mem.load (cp - 8)
    if mg ≠ 0xef#8 then pure 0
    else do
      let ix ← s.mem.load (cp - 8 + 1)
      pure ix.toNat

/-- contrib/kmalloc/kmalloc.c:459-464: is the block among the first `n` of the list? (`n` counts down; `realloc_srchlen` is not negative.) -/
def kInList (m : Mem) (freep : Nat) (p : Nat) : Nat → Res Bool
  | 0 => pure false
  | n + 1 => if p = 0 then pure false else if p = freep then pure true else do
    let q ← loadP m p
    kInList m freep q n

/-- contrib/kmalloc/kmalloc.c:450-467 `findbucket`, from bucket `i` on, `d` buckets left; 30 for not found. -/
def findbucket (s : KSt) (freep srchlen i : Nat) : Nat → Res Nat
  | 0 => pure 30
  | d + 1 => do
    let f ← kInList s.mem freep (s.nextf i) srchlen
    if f then pure i else findbucket s freep srchlen (i + 1) d

/-- `1 << x` for an `int`. -/
def shl1 (x : Nat) : Res Int := if x < 31 then .ok (2 ^ x : Nat) else if x = 31 then .ok (-2147483648) else .ub

/-- contrib/kmalloc/kmalloc.c:416-419, 422-428: the bytes of a block of `1 << x`. -/
def kBytes (s : KSt) (x : Int) : Int := if x < (s.pagesz : Int) then x - 8 else x + ((s.pagesz : Int) - 8)

/-- contrib/kmalloc/kmalloc.c:393-414: was the block in use, and its bucket. -/
def kOld (s : KSt) (op : Nat) : Res (Bool × Nat) := do
  let mg ← s.mem.load op
  if mg = 0xef#8 then do
    let ix ← s.mem.load (op + 1)
    pure (true, ix.toNat)
  else do
    let i ← findbucket s op 1 0 30
    if i < 30 then pure (false, i)
    else do
      let i ← findbucket s op 4 0 30
      pure (false, i)

/-- contrib/kmalloc/kmalloc.c:438-442: a new block with the bytes of the old. -/
def kMove (K : BrkK) (s : KSt) (cp : Nat) (nbytes onb : Int) : Res (KSt × Nat) := do
  let r ← kmalloc K s (cutInt nbytes)
  if r.2 = 0 then pure (r.1, 0)
  else if cp ≠ r.2 then do
    let t ← memcpy r.1.mem r.2 cp (if nbytes < onb then nbytes else onb)
    pure (r.1.setMem t.1, r.2)
  else pure (r.1, r.2)

/-- contrib/kmalloc/kmalloc.c:375-443 `krealloc`, for sizes that are not negative and blocks below 2^31 (the comparisons with `onb` are without sign). -/
def krealloc (K : BrkK) (s : KSt) (cp : Nat) (nbytes : Int) : Res (KSt × Nat) :=
  if cp = 0 then kmalloc K s (cutInt nbytes)
  else if nbytes = 0 then do
    let s ← kfree s cp
    pure (s, 0)
  else if cp < 8 then .ub
  else do
    let o ← kOld s (cp - 8)
    let x ← shl1 (o.2 + 3)
    let onb := kBytes s x
    if o.1 then do
      let lo ← (if o.2 ≠ 0 then do
          let y ← shl1 (o.2 + 2)
          pure (kBytes s y)
        else pure 0)
      if nbytes ≤ onb ∧ lo < nbytes then pure (s, cp)
      else do
        let s ← kfree s cp
        kMove K s cp nbytes onb
    else kMove K s cp nbytes onb

end Minilib

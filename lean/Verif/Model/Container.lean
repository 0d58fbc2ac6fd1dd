import Verif.Model.Output
import Verif.Model.MemFn
import Verif.Model.Userdb
import Verif.Model.Process
/-
Containers: /repo/macros/array.c and /repo/macros/linkedlist.c.  (/repo/macros/pool.c is unfinished and does not compile.)

The members of the structs are records here, not bytes of memory (64 bytes in front of the data, which are only written through the
struct); the data and the nodes are in memory.  The answer of `mmap` is a parameter, none for a failure.
-/

set_option autoImplicit false

namespace Minilib
open Mem

/-- macros/array.c:22-32 `struct __array` at the address `base` (also in `current` and `first`); `next`, `previous`, `align` and `data` are not
used after they were set to zero. -/
structure MArr where
  base : Nat
  preallocate : Int
  last : Nat
  areaend : Nat

/-- macros/array.c:35-39 `struct __iter`. -/
structure ArrIter where
  current : MArr
  index : Nat
  last : Nat

/-- macros/array.c:41-57 `newarray`.  `kern` answers `mmap` with the memory and the address.  A failure is not noticed: `a<=0` compares pointers, and
`mmap` answers -1; the write to it is undefined. -/
def newarray (kern : Int → Option (Mem × Nat)) (preallocate : Int) : Res (Mem × Option MArr) :=
  let n := if preallocate = 0 then 4096 else preallocate
  match kern n with
  | none => .ub
  | some (m, a) =>
    if a = 0 then pure (m, none)
    else do
      let r ← memset m a 0 64
      pure (r.1, some ⟨a, n, a + 64, (a + n).toNat⟩)

/-- macros/array.c:59-66 `getiter`. -/
def getiter (a : MArr) : ArrIter := ⟨a, a.base + 64, a.last⟩

/-- macros/array.c:70-74 `first`. -/
def arrFirst (i : ArrIter) : ArrIter × Nat := ({ i with index := i.current.base + 64 }, i.current.base + 64)

/-- macros/array.c:76-80 `current`. -/
def arrCurrent (i : ArrIter) : Nat := if i.index ≥ i.last then 0 else i.index

/-- macros/array.c:83-92 `next`. -/
def arrNext (K : WKernel) (w : Writes) (i : ArrIter) : Writes × ArrIter × Nat :=
  let i := { i with index := i.index + 1 }
  if i.index < i.last then (w, i, i.index)
  else ((sysWrite K w 1 (textBytes "last\n")).1, i, 0)

/-- macros/array.c:96-108 `push`. -/
def arrPush (K : WKernel) (m : Mem) (w : Writes) (a : MArr) (e : Nat) : Res (Mem × Writes × MArr × Nat) :=
  if a.last < a.areaend then do
    let b ← m.load e
    let m ← m.store a.last b
    pure (m, w, { a with last := a.last + 1 }, a.last + 1)
  else pure (m, (sysWrite K w 1 (textBytes "Full\n")).1, a, 0)

/-- macros/linkedlist.c:36-49 `struct __list`, as far as it is used. -/
structure MList where
  first : Nat
  last : Nat
  memend : Nat
  nodecount : Int

/-- macros/linkedlist.c:51-64 `newlist`: `(node*)l+sizeof(list)` is 64 nodes of 8 bytes behind `l`, `preallocate + l` is `preallocate` lists of
64 bytes behind it. -/
def newlist (kern : Int → Option (Mem × Nat)) (preallocate : Int) : Res (Mem × Option MList) :=
  let n := if preallocate = -1 then 4096 else preallocate
  match kern n with
  | none => .ub
  | some (m, l) =>
    if l = 0 then pure (m, none)
    else do
      let r ← memset m l 0 64
      let m ← storePtr r.1 (l + 512) 0
      pure (m, some ⟨l + 512, l + 512, ((l : Int) + 64 * n).toNat, 0⟩)

/-- macros/linkedlist.c:89-101 `_append`; the branch for a full list is empty. -/
def listAppend (m : Mem) (l : MList) (e : Nat) (len : Int) : Res (Mem × MList × Nat) := do
  let m ← storePtr m l.last ((len + 16) % 18446744073709551616).toNat
  let r ← memcpy m (l.last + 64) e len
  let q ← loadPtr r.1 l.last
  let s ← memset r.1 q 0 8
  pure (s.1, { l with last := q, nodecount := l.nodecount + 1 }, q + 64)

end Minilib

import Verif.Model.Malloc
import Verif.Model.Conv
/-
Model of the allocator on the data segment: /repo/src/memory/{sys_brk,getbrk,brk,sbrk,setbrk,malloc_brk,freebrk}.c and
the parts of `free` and `realloc` (/repo/src/memory/malloc.c) compiled with `mini_malloc_brk`, with `mini_globals` and
`mini_errno` set (`errno` itself is not modelled).

The kernel's side is the system call brk(2) of Linux: a request below the start of the data segment, or above what the
limits allow, is refused, and the answer is the break after the call in any case (never an error number).  Memory is
mapped and unmapped in whole pages; fresh pages are zero.
-/

set_option autoImplicit false

namespace Minilib
open Mem

/-- `MALLOC_BRK`, src/memory/malloc_brk.c:2, malloc.c:37. -/
def MALLOC_BRK : BitVec 32 := 0x10000000#32

/-- The kernel's side: the start of the data segment and how far the break may go at the `k`-th call. -/
structure BrkK where
  start : Nat
  limit : Nat → Nat

/-- The program: memory and arena, `mlgl->brk`, `mlgl->malloc_start` (include/minilib_global.h:131-132); the kernel's
break and the number of calls. -/
structure BrkSt where
  heap : Heap
  brk : Nat
  mstart : Nat
  kbrk : Nat
  calls : Nat

/-- End of the page `x` lies in (`x` itself at the start of a page): memory is mapped up to there. -/
def pageUp (x : Nat) : Nat := (x + 4095) / 4096 * 4096

/-- Memory after the break has moved from `old` to `new`. -/
def remap (m : Mem) (old new : Nat) : Mem := fun a =>
  if pageUp old ≤ a ∧ a < pageUp new then some 0#8
  else if pageUp new ≤ a ∧ a < pageUp old then none else m a

/-- src/intern/startup.c:85-86: the state at the start of the program; the data segment is empty. -/
def BrkSt.init (K : BrkK) (h : Heap) : BrkSt := ⟨h, 0, 0, K.start, 0⟩

/-- src/memory/sys_brk.c:4-8 `sys_brk`, with the system call. -/
def sysBrk (K : BrkK) (s : BrkSt) (addr : Int) : BrkSt × Int :=
  let a := (addr % 18446744073709551616).toNat
  if K.start ≤ a ∧ (a ≤ s.kbrk ∨ a ≤ K.limit s.calls) then
    (⟨⟨remap s.heap.mem s.kbrk a, s.heap.mbufsize⟩, s.brk, s.mstart, a, s.calls + 1⟩, a)
  else ({ s with calls := s.calls + 1 }, s.kbrk)

/-- src/memory/getbrk.c:6-18 `getbrk`. -/
def getbrk (K : BrkK) (s : BrkSt) : BrkSt × Int :=
  if s.brk = 0 then
    let r := sysBrk K s 0
    ({ r.1 with brk := r.2.toNat }, r.2)
  else (s, s.brk)

/-- src/memory/brk.c:8-26 `brk`. -/
def brk (K : BrkK) (s : BrkSt) (addr : Int) : BrkSt × Int :=
  let r := sysBrk K s addr
  if r.2 > 0 then ({ r.1 with brk := r.2.toNat }, 0) else (r.1, -1)

/-- src/memory/setbrk.c:6-8 `setbrk`. -/
def setbrk (K : BrkK) (s : BrkSt) (addr : Int) : BrkSt × Int := brk K s addr

/-- src/memory/sbrk.c:9-32 `sbrk`: 0 for an error. -/
def sbrk (K : BrkK) (s : BrkSt) (incr : Int) : Res (BrkSt × Int) := do
  let g := getbrk K s
  let addr ← ckLong (g.2 + incr)
  let r := sysBrk K g.1 addr
  if r.2 > 0 then pure ({ r.1 with brk := r.2.toNat }, g.2) else pure (r.1, 0)

/-- src/memory/malloc_brk.c:16-42 `malloc_brk`; as pointers are compared without sign, `mem <= 0` is `mem == 0`. -/
def mallocBrk (K : BrkK) (s : BrkSt) (size : Int) : Res (BrkSt × Nat) :=
  if size < 0 then pure (s, 0)
  else do
    let size ← (if size = 0 then pure 4 else ckInt (((size - 1) / 4 + 2) * 4))
    let r ← sbrk K s size
    if r.2 = 0 then pure (r.1, 0)
    else
      let s := if r.1.mstart = 0 then { r.1 with mstart := r.2.toNat } else r.1
      let m ← s.heap.mem.storeW r.2 (MALLOC_BRK ||| BitVec.ofInt 32 size)
      pure ({ s with heap := ⟨m, s.heap.mbufsize⟩ }, r.2.toNat + 4)

/-- src/memory/malloc.c:168-229 `free` with `mini_malloc_brk`. -/
def freeB (A : Arena) (K : BrkK) (s : BrkSt) (p : Nat) : Res BrkSt :=
  if p = 0 then pure s
  else do
    let i0 ← s.heap.mem.loadW ((p : Int) - 4)
    if i0 &&& MALLOC_BRK ≠ 0#32 then
      let g := getbrk K s
      if (p : Int) + (i0 &&& MBUF_V).toNat ≥ g.2 then pure (brk K g.1 ((p : Int) - 4)).1
      else do
        let m ← g.1.heap.mem.storeW ((p : Int) - 4) (i0 ||| MBUF_FREE)
        pure { g.1 with heap := ⟨m, g.1.heap.mbufsize⟩ }
    else do
      let h ← free A s.heap p
      pure { s with heap := h }

/-- src/memory/malloc.c:281-312, the part of `realloc` behind the case of a block at the end of the data segment. -/
def reallocMove (A : Arena) (K : BrkK) (s : BrkSt) (p : Nat) (oldsize size : Int) : Res (BrkSt × Nat) :=
  if size < oldsize then pure (s, p)
  else do
    let rest ← ckInt (s.heap.mbufsize - size)
    let rest ← ckInt (rest + oldsize * 4)
    if rest < 64 then do
      let s ← freeB A K s p
      pure (s, 0)
    else do
      let r ← malloc A s.heap size
      let m ← reallocCopy r.1.mem r.2 p (r.2 + oldsize * 2 - 1)
      let s ← freeB A K { s with heap := ⟨m, r.1.mbufsize⟩ } p
      pure (s, r.2)

/-- src/memory/malloc.c:240-312 `realloc` with `mini_malloc_brk`. -/
def reallocB (A : Arena) (K : BrkK) (s : BrkSt) (p : Nat) (size : Int) : Res (BrkSt × Nat) :=
  if size = 0 then do
    let s ← freeB A K s p
    pure (s, 0)
  else if p = 0 then do
    let r ← malloc A s.heap size
    pure ({ s with heap := r.1 }, r.2)
  else do
    let i0 ← s.heap.mem.loadW ((p : Int) - 4)
    let oldsize : Int := (i0 &&& MBUF_V).toNat
    let s1 ← ckInt (size - 1)
    let size ← ckInt ((s1 / 4 + 2) * 4)
    if oldsize = size then pure (s, p)
    else if i0 &&& MALLOC_BRK ≠ 0#32 then
      let g := getbrk K s
      if (p : Int) + oldsize ≥ g.2 then
        let b := brk K g.1 ((p : Int) - 4 + size)
        if b.2 ≠ 0 then pure (b.1, 0)
        else do
          let m ← b.1.heap.mem.storeW ((p : Int) - 4) (MALLOC_BRK ||| BitVec.ofInt 32 size)
          pure ({ b.1 with heap := ⟨m, b.1.heap.mbufsize⟩ }, p)
      else reallocMove A K g.1 p oldsize size
    else reallocMove A K s p oldsize size

/-- src/memory/freebrk.c:9-15 `free_brk`. -/
def freeBrk (K : BrkK) (s : BrkSt) : BrkSt × Int :=
  if s.mstart ≠ 0 then
    let g := getbrk K s
    if g.2 > s.mstart then brk K g.1 s.mstart else (g.1, 1)
  else (s, 1)

end Minilib

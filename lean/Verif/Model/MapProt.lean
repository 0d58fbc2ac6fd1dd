import Verif.C.Int
import Verif.C.Res
/-
Model of /repo/src/memory/map_protected.c and unmap_protected.c over a page table.

The kernel is part of the environment: `mmap` either refuses (an errno) or maps fresh pages at a page
aligned address chosen by the kernel; `mprotect` and `munmap` act on whole pages.  (Linux semantics of
the three system calls; the wrappers are src/memory/mmap.c:8-22 and include/syscall_stubs.h:255,262.)
-/

set_option autoImplicit false

namespace Minilib

/-- Access rights of a mapped page. -/
inductive Prot where
  | none
  | rw
  deriving DecidableEq, Repr

/-- The page table: page number to access rights, `none` if unmapped. -/
abbrev Pages := Nat → Option Prot

/-- `PAGESIZE`. -/
def PAGESIZE : Nat := 4096

/-- Set `n` pages starting with page `k`. -/
def Pages.set (t : Pages) (k n : Nat) (v : Option Prot) : Pages := fun i =>
  if k ≤ i ∧ i < k + n then v else t i

/-- Pages needed for `len` bytes. -/
def pagesOf (len : Nat) : Nat := (len + PAGESIZE - 1) / PAGESIZE

/-- The kernel's `mmap(0,len,…)`: it may refuse, or place the mapping at any page number `k ≥ 1` where
the pages are free.  `answer` is the kernel's decision. -/
def kmmap (t : Pages) (len : Nat) (answer : Except Nat Nat) : Pages × Int :=
  match answer with
  | .error e => (t, -(e : Int))
  | .ok k => (t.set k (pagesOf len) (some .rw), (k * PAGESIZE : Nat))

/-- The kernel's `mprotect(addr,len,PROT_NONE)`: fails on an unaligned or unmapped range. -/
def kmprotectNone (t : Pages) (addr : Int) (len : Nat) : Pages × Int :=
  if addr < 0 ∨ addr % PAGESIZE ≠ 0 then (t, -22)
  else
    let k := (addr / PAGESIZE).toNat
    if (List.range (pagesOf len)).all (fun i => (t (k + i)).isSome) then
      (t.set k (pagesOf len) (some .none), 0)
    else (t, -12)

/-- The kernel's `munmap(addr,len)`. -/
def kmunmap (t : Pages) (addr : Int) (len : Nat) : Pages × Int :=
  if addr < 0 ∨ addr % PAGESIZE ≠ 0 ∨ len = 0 then (t, -22)
  else (t.set (addr / PAGESIZE).toNat (pagesOf len) none, 0)

/-- src/memory/map_protected.c:22-35 `map_protected`.  The comparison `p<=0` of pointers is unsigned:
it only catches 0.  The results of the two `mprotect` calls are ignored. -/
def map_protected (t : Pages) (len : Int) (answer : Except Nat Nat) : Res (Pages × Int) := do
  let len ← ckInt (len + (PAGESIZE - Int.tmod len PAGESIZE) + 2 * PAGESIZE)
  let r := kmmap t len.toNat answer
  if r.2 = 0 then pure r
  else
    pure ((kmprotectNone (kmprotectNone r.1 r.2 1).1 (r.2 + len - PAGESIZE) 1).1, r.2 + PAGESIZE)

/-- src/memory/unmap_protected.c:9-15 `unmap_protected`. -/
def unmap_protected (t : Pages) (p len : Int) : Res (Pages × Int) := do
  let len ← ckInt (len + (PAGESIZE - Int.tmod len PAGESIZE))
  let l2 ← ckInt (len + 2 * PAGESIZE)
  pure (kmunmap t (p - PAGESIZE) l2.toNat)

end Minilib

import Verif.C.Word
import Verif.C.Int
import Verif.Model.Str
/-
Model of the arena allocator /repo/src/memory/malloc.c (without `mini_malloc_brk`, i.e. the
default allocator on the global buffer), and of the functions built on it:
calloc, realloc, strdup, strndup.

The arena `mlgl->mbuf` (union with `mlgl->ibuf`, include/minilib_global.h:181-184) is the range
`[base, base + size)` of the program memory, so blocks handed out are ordinary memory and can be
combined with the models of the other functions.  Words are 4 bytes, little endian.
Integer arithmetic on block headers uses two's complement wraparound (gcc's behaviour; in ISO C the
addition of two headers with the flag bit 0x80000000 set, malloc.c:216, is a signed overflow).
The message written on failure (malloc.c:150) is not modelled.
-/

set_option autoImplicit false

namespace Minilib
open Mem

/-- Compile-time layout: address of `mlgl->mbuf` and `mini_buf` (include/minilib_global.h:58-75). -/
structure Arena where
  base : Nat
  size : Nat
  deriving DecidableEq, Repr

/-- Run-time state: program memory and `mlgl->mbufsize` (include/minilib_global.h:127). -/
structure Heap where
  mem : Mem
  mbufsize : Int

/-- `MBUF_V`, malloc.c:41. -/
def MBUF_V : BitVec 32 := 0x0FFFFFFF#32
/-- `MBUF_FREE`, malloc.c:22. -/
def MBUF_FREE : BitVec 32 := 0x80000000#32
/-- `MBUF_PREVISFREE`, malloc.c:33. -/
def MBUF_PREVISFREE : BitVec 32 := 0x20000000#32

/-- Address of `mlgl->ibuf[i>>2]`. -/
def Arena.word (A : Arena) (i : Int) : Int := A.base + 4 * (i / 4)

/-- src/intern/startup.c:50: `mlgl->mbufsize = mini_buf-4`; the arena lies in the bss (zero). -/
def Heap.init (A : Arena) (m : Mem) : Heap := ⟨m, (A.size : Int) - 4⟩

/-- src/memory/malloc.c:142-163 `malloc`. -/
def malloc (A : Arena) (h : Heap) (size : Int) : Res (Heap × Nat) := do
  let s1 ← ckInt (size - 1)
  let words := s1 / 4 + 2
  let bytes ← ckInt (words * 4)
  let rest ← ckInt (h.mbufsize - bytes)
  if rest < 64 then pure (h, 0)
  else
    let w ← h.mem.loadW (A.word h.mbufsize)
    let m ← h.mem.storeW (A.word h.mbufsize) (w &&& MBUF_V)
    let mb := h.mbufsize - bytes
    let m ← m.storeW (A.word mb) (BitVec.ofInt 32 words)
    pure (⟨m, mb⟩, ((A.base : Int) + mb + 4).toNat)

/-- src/memory/malloc.c:210-213: merge with a free lower neighbour; result: memory and `i`. -/
def freePrev (m : Mem) (i : Int) : Res (Mem × Int) := do
  let h0 ← m.loadW i
  if h0 &&& MBUF_PREVISFREE ≠ 0#32 then
    let f ← m.loadW (i - 4)
    let pi := i + 4 * (-f.toInt - 1)
    let ph ← m.loadW pi
    let m ← m.storeW pi (((ph + h0) &&& MBUF_V) ||| MBUF_FREE)
    let f ← m.loadW (i - 4)
    pure (m, i - 4 * (f.toInt + 1))
  else pure (m, i)

/-- src/memory/malloc.c:215-225: merge with a free upper neighbour, or mark.  `i[0]` is read again
wherever the C code reads it. -/
def freeNext (m : Mem) (i : Int) : Res Mem := do
  let h0 ← m.loadW i
  let nh ← m.loadW (i + 4 * (h0 &&& MBUF_V).toNat)
  if nh &&& MBUF_FREE ≠ 0#32 then
    let m ← m.storeW i (((h0 + nh) &&& MBUF_V) ||| MBUF_FREE)
    let h0 ← m.loadW i
    m.storeW (i + 4 * ((h0 &&& MBUF_V).toNat - 1)) ((h0 &&& MBUF_V) - 1)
  else
    let m ← m.storeW (i + 4 * ((h0 &&& MBUF_V).toNat - 1)) ((h0 &&& MBUF_V) - 1)
    let h0 ← m.loadW i
    let nh ← m.loadW (i + 4 * (h0 &&& MBUF_V).toNat)
    let m ← m.storeW (i + 4 * (h0 &&& MBUF_V).toNat) (nh ||| MBUF_PREVISFREE)
    let h0 ← m.loadW i
    m.storeW i (h0 ||| MBUF_FREE)

/-- src/memory/malloc.c:168-229 `free`. -/
def free (A : Arena) (h : Heap) (p : Nat) : Res Heap :=
  if p = 0 then pure h
  else
    let i : Int := (p : Int) - 4
    if (A.base : Int) + h.mbufsize = i then do
      let h0 ← h.mem.loadW i
      let mb := h.mbufsize + 4 * (h0 &&& MBUF_V).toNat
      if mb = A.size then pure ⟨h.mem, mb⟩
      else
        let w ← h.mem.loadW (A.word mb)
        if w &&& MBUF_FREE ≠ 0#32 then pure ⟨h.mem, mb + 4 * (w &&& MBUF_V).toNat⟩
        else pure ⟨h.mem, mb⟩
    else do
      let (m, i) ← freePrev h.mem i
      let m ← freeNext m i
      pure ⟨m, h.mbufsize⟩

/-- src/memory/calloc.c:26-27: `for(char *e = p+size; pp<e;pp++) *pp=0;` (no OPTIMIZATIONS). -/
def callocClear (m : Mem) (pp e : Int) : Res Mem :=
  if pp < e then do
    let m ← if pp < 0 then .ub else m.store pp.toNat 0#8
    callocClear m (pp + 1) e
  else pure m
partial_fixpoint

/-- src/memory/calloc.c:4-33 `calloc`. -/
def calloc (A : Arena) (h : Heap) (nmemb size : Int) : Res (Heap × Nat) := do
  let total ← ckInt (size * nmemb)
  let (h, p) ← malloc A h total
  if p = 0 then pure (h, 0)
  else
    let m ← callocClear h.mem p (p + size)
    pure (⟨m, h.mbufsize⟩, p)

/-- src/memory/malloc.c:305-308: the copy loop of `realloc`: `d <= (int*)((void*)n+((oldsize<<1)-1))`,
`last` is that bound as an address. -/
def reallocCopy (m : Mem) (d s last : Int) : Res Mem :=
  if d ≤ last then do
    let w ← m.loadW s
    let m ← m.storeW d w
    reallocCopy m (d + 4) (s + 4) last
  else pure m
partial_fixpoint

/-- src/memory/malloc.c:240-312 `realloc`. -/
def realloc (A : Arena) (h : Heap) (p : Nat) (size : Int) : Res (Heap × Nat) :=
  if size = 0 then do
    let h ← free A h p
    pure (h, 0)
  else if p = 0 then malloc A h size
  else do
    let h0 ← h.mem.loadW ((p : Int) - 4)
    let oldsize : Int := (h0 &&& MBUF_V).toNat
    let s1 ← ckInt (size - 1)
    let size ← ckInt ((s1 / 4 + 2) * 4)
    if oldsize = size then pure (h, p)
    else if size < oldsize then pure (h, p)
    else
      let rest ← ckInt (h.mbufsize - size)
      let rest ← ckInt (rest + oldsize * 4)
      if rest < 64 then
        let h ← free A h p
        pure (h, 0)
      else
        let (h, n) ← malloc A h size
        let m ← reallocCopy h.mem n p (n + oldsize * 2 - 1)
        let h ← free A ⟨m, h.mbufsize⟩ p
        pure (h, n)

/-- src/string/strdup.c:7-12 `strdup`. -/
def strdup (A : Arena) (h : Heap) (source : Nat) : Res (Heap × Nat) := do
  let l ← strlen h.mem source
  let (h, d) ← malloc A h l
  if d = 0 then pure (h, 0)
  else
    let (m, _) ← strcpy h.mem d source
    pure (⟨m, h.mbufsize⟩, d)

/-- src/string/strndup.c:4-12 `strndup` (`maxlen ≥ 0`). -/
def strndup (A : Arena) (h : Heap) (source maxlen : Nat) : Res (Heap × Nat) := do
  let l ← strlen h.mem source
  let l := if l > maxlen then maxlen else l
  let (h, d) ← malloc A h (l + 1)
  if d = 0 then pure (h, 0)
  else
    let (m, _) ← stplcpy h.mem d source (l + 1)
    pure (⟨m, h.mbufsize⟩, d)

end Minilib

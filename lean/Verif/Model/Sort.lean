import Verif.Model.Conv
/-
Models of /repo/src/sort/qsort.c, swap.c and bsearch.c.

`size_t` is `long` in this library (include/globaldefs.h:22), so products that leave 64 bits are
undefined.  The comparison function is any function of the contents of the two elements; it is given
the bytes read from memory at the two addresses.
-/

set_option autoImplicit false

namespace Minilib
open Mem

/-- The `n` bytes at `a` (what a comparison function sees through its pointer). -/
def loadBytes (m : Mem) (a : Nat) : Nat → Res (List Byte)
  | 0 => .ok []
  | n + 1 => do
    let b ← m.load a
    let l ← loadBytes m (a + 1) n
    pure (b :: l)

/-- Store a list of bytes at `a` (one store instruction of that width). -/
def storeBytes (m : Mem) (a : Nat) : List Byte → Res Mem
  | [] => .ok m
  | b :: l => do
    let m ← m.store a b
    storeBytes m (a + 1) l

/-- The three instructions `xor %0,%1; xor %1,%0; xor %0,%1` (AT&T operand order: the second operand
is changed) on one byte of `*a` and of `*b`; the new bytes of `*a` and `*b`. -/
def xorSwap (x y : Byte) : Byte × Byte :=
  let y := y ^^^ x
  let x := x ^^^ y
  let y := y ^^^ x
  (x, y)

/-- src/sort/swap.c:6-15, one exchange of words: `*a` is held in a register ("+r"), loaded before and
stored after the three xor's; xor works on each byte of the word separately. -/
def swapWord (m : Mem) (a b size : Nat) : Res Mem := do
  let x ← loadBytes m a size
  let y ← loadBytes m b size
  let m ← storeBytes m b ((x.zip y).map fun p => (xorSwap p.1 p.2).2)
  storeBytes m a ((x.zip y).map fun p => (xorSwap p.1 p.2).1)

/-- src/sort/swap.c:16-20: the byte loop. -/
def swapLoop (m : Mem) (a b : Nat) : Nat → Res Mem
  | 0 => .ok m
  | n + 1 => do
    let x ← m.load a
    let y ← m.load b
    let m ← m.store b (xorSwap x y).2
    let m ← m.store a (xorSwap x y).1
    swapLoop m (a + 1) (b + 1) n

/-- src/sort/swap.c:5-21 `swap`. -/
def swap (m : Mem) (a b size : Nat) : Res Mem :=
  if size = 4 then swapWord m a b 4
  else if size = 8 then swapWord m a b 8
  else swapLoop m a b size

/-- src/sort/qsort.c:47-48: `for (gap = 0; ++gap < nel;) gap *= 3;` -/
def qsortGap (nel gap : Nat) : Res Nat :=
  if gap + 1 < nel then do
    let _ ← ckLong (((gap + 1) * 3 : Nat) : Int)
    qsortGap nel ((gap + 1) * 3)
  else pure (gap + 1)
partial_fixpoint

/-- src/sort/qsort.c:52-66: the inner loop. -/
def qsortInner (comp : List Byte → List Byte → Int) (base width wgap : Nat) (m : Mem) (j : Nat) :
    Res Mem := do
  let x ← loadBytes m (base + j) width
  let y ← loadBytes m (base + j + wgap) width
  if comp x y ≤ 0 then pure m
  else
    let m ← swap m (base + j) (base + j + wgap) width
    if j < wgap then pure m else qsortInner comp base width wgap m (j - wgap)
partial_fixpoint

/-- src/sort/qsort.c:51-67: one pass. -/
def qsortPass (comp : List Byte → List Byte → Int) (base width wgap wnel : Nat) (m : Mem) (i : Nat) :
    Res Mem :=
  if i < wnel then do
    let m ← qsortInner comp base width wgap m (i - wgap)
    qsortPass comp base width wgap wnel m (i + width)
  else pure m
partial_fixpoint

/-- src/sort/qsort.c:49-68: the loop over the gaps. -/
def qsortGaps (comp : List Byte → List Byte → Int) (base width wnel : Nat) (m : Mem) (gap : Nat) :
    Res Mem :=
  if gap / 3 ≠ 0 then do
    let m ← qsortPass comp base width (width * (gap / 3)) wnel m (width * (gap / 3))
    qsortGaps comp base width wnel m (gap / 3)
  else pure m
partial_fixpoint

/-- src/sort/qsort.c:35-69 `qsort`. -/
def qsort (comp : List Byte → List Byte → Int) (m : Mem) (base nel width : Nat) : Res Mem := do
  let _ ← ckLong ((width * nel : Nat) : Int)
  let gap ← qsortGap nel 0
  qsortGaps comp base width (width * nel) m gap

/-- src/sort/bsearch.c:65-75: the search loop; `compar` is the comparison with the key. -/
def bsearchLoop (compar : List Byte → Int) (m : Mem) (size base lim : Nat) : Res Nat :=
  if lim ≠ 0 then do
    let p := base + lim / 2 * size
    let x ← loadBytes m p size
    let cmp := compar x
    if cmp = 0 then pure p
    else if cmp > 0 then bsearchLoop compar m size (p + size) ((lim - 1) / 2)
    else bsearchLoop compar m size base (lim / 2)
  else pure 0
partial_fixpoint

/-- src/sort/bsearch.c:55-77 `bsearch`. -/
def bsearch (compar : List Byte → Int) (m : Mem) (base nmemb size : Nat) : Res Nat :=
  bsearchLoop compar m size base nmemb

end Minilib

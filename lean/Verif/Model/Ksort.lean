import Verif.C.Mem
import Verif.C.Int
import Mathlib.Logic.Function.Basic
/-
Models of the sorting templates in /repo/contrib/ksort.h and /repo/contrib/qsort.h.

The element type of a template is any type, its comparison macro `__sort_lt` (`Q_LESS`) any Boolean
function of two elements.  An array of `n` elements is a function from the index; every access is
checked against `n`.  Pointers into the array are indices.  `size_t` is `long` in this library
(include/globaldefs.h:22); no index computed here exceeds twice the length of an array, so the
arithmetic is done without bounds.  malloc is taken to succeed (the templates do not check it).
-/

set_option autoImplicit false

namespace Minilib

variable {α : Type}

/-- The elements of an array by index. -/
abbrev Arr (α : Type) := Nat → α

/-- `a[i]` for an array of `n` elements. -/
def rd (n : Nat) (a : Arr α) (i : Nat) : Res α := if i < n then .ok (a i) else .ub

/-- `a[i] = x` for an array of `n` elements. -/
def wr (n : Nat) (a : Arr α) (i : Nat) (x : α) : Res (Arr α) :=
  if i < n then .ok (Function.update a i x) else .ub

/-- contrib/ksort.h:74 `KSORT_SWAP` and the same three assignments spelled out elsewhere. -/
def exch (n : Nat) (a : Arr α) (i j : Nat) : Res (Arr α) := do
  let t ← rd n a i
  let u ← rd n a j
  let a ← wr n a i u
  wr n a j t

/-- `__sort_lt(a[i], a[j])` -/
def ltAt (lt : α → α → Bool) (n : Nat) (a : Arr α) (i j : Nat) : Res Bool := do
  let x ← rd n a i
  let y ← rd n a j
  pure (lt x y)

/-! ### merge sort -/

/-- contrib/ksort.h:88-97: the first pass, pairs of neighbours from `a` to `b`. -/
def ksPairs (lt : α → α → Bool) (n : Nat) (a b : Arr α) (i p : Nat) : Res (Arr α) :=
  if i < n then
    if i = n - 1 then do
      let x ← rd n a i
      let b ← wr n b p x
      ksPairs lt n a b (i + 2) (p + 1)
    else do
      let y ← rd n a (i + 1)
      let x ← rd n a i
      let b ← wr n b p (if lt y x then y else x)
      let b ← wr n b (p + 1) (if lt y x then x else y)
      ksPairs lt n a b (i + 2) (p + 2)
  else pure b
partial_fixpoint

/-- contrib/ksort.h:113-114 (and 121): copy `a[j..ej)` to `b` from `p` on. -/
def ksCopy (n : Nat) (a b : Arr α) (j ej p : Nat) : Res (Arr α × Nat) :=
  if j < ej then do
    let x ← rd n a j
    let b ← wr n b p x
    ksCopy n a b (j + 1) ej (p + 1)
  else pure (b, p)
partial_fixpoint

/-- contrib/ksort.h:109-114: merge `a[j..ea)` and `a[k..eb)` to `b` from `p` on. -/
def ksMerge (lt : α → α → Bool) (n : Nat) (a b : Arr α) (j ea k eb p : Nat) : Res (Arr α) :=
  if j < ea ∧ k < eb then do
    let y ← rd n a k
    let x ← rd n a j
    if lt y x then do
      let b ← wr n b p y
      ksMerge lt n a b j ea (k + 1) eb (p + 1)
    else do
      let b ← wr n b p x
      ksMerge lt n a b (j + 1) ea k eb (p + 1)
  else do
    let r ← ksCopy n a b j ea p
    let r ← ksCopy n a r.1 k eb r.2
    pure r.1
partial_fixpoint

/-- contrib/ksort.h:100-115: one later pass. -/
def ksPass (lt : α → α → Bool) (n step : Nat) (a b : Arr α) (i : Nat) : Res (Arr α) :=
  if i < n then do
    let b ← ksMerge lt n a b i (if n < i + step then n else i + step) (i + step)
      (if n < i + step then 0 else if n < i + 2 * step then n else i + 2 * step) i
    ksPass lt n step a b (i + 2 * step)
  else pure b
partial_fixpoint

/-- contrib/ksort.h:84-122: the passes; `a` is `a2[curr]`, `b` the other array.  The result is the
array `a2[0]`. -/
def ksPasses (lt : α → α → Bool) (n : Nat) (a b : Arr α) (curr shift : Nat) : Res (Arr α) :=
  if 2 ^ shift < n then do
    let b ← (if shift = 0 then ksPairs lt n a b 0 0 else ksPass lt n (2 ^ shift) a b 0)
    ksPasses lt n b a (1 - curr) (shift + 1)
  else if curr = 1 then do
    let r ← ksCopy n a b 0 n 0
    pure r.1
  else pure a
partial_fixpoint

/-- contrib/ksort.h:77-124 `ks_mergesort`; `temp` is the contents of the second array, be it given by
the caller or fresh from malloc. -/
def ksMergesort (lt : α → α → Bool) (n : Nat) (array temp : Arr α) : Res (Arr α) :=
  ksPasses lt n array temp 0 0

/-! ### heap sort -/

/-- contrib/ksort.h:129-134: the loop of ks_heapadjust; `size` is the length of the array, `n` that
of the heap, `i` the place that is free, `k` the place whose sons come next. -/
def ksAdjustLoop (lt : α → α → Bool) (size n : Nat) (tmp : α) (l : Arr α) (i k : Nat) : Res (Arr α) :=
  if 2 * k + 1 < n then do
    let right ← (if 2 * k + 1 ≠ n - 1 then ltAt lt size l (2 * k + 1) (2 * k + 2) else pure false)
    let k := if right then 2 * k + 2 else 2 * k + 1
    let x ← rd size l k
    if lt x tmp then wr size l i tmp
    else do
      let l ← wr size l i x
      ksAdjustLoop lt size n tmp l k k
  else wr size l i tmp
partial_fixpoint

/-- contrib/ksort.h:125-135 `ks_heapadjust` -/
def ksHeapadjust (lt : α → α → Bool) (size i n : Nat) (l : Arr α) : Res (Arr α) := do
  let tmp ← rd size l i
  ksAdjustLoop lt size n tmp l i i

/-- contrib/ksort.h:139-140: `i + 1` in C's counting is the argument here, as the loop ends at -1. -/
def ksHeapmakeLoop (lt : α → α → Bool) (size : Nat) (l : Arr α) : Nat → Res (Arr α)
  | 0 => .ok l
  | i + 1 => do
    let l ← ksHeapadjust lt size i size l
    ksHeapmakeLoop lt size l i

/-- contrib/ksort.h:136-141 `ks_heapmake` -/
def ksHeapmake (lt : α → α → Bool) (lsize : Nat) (l : Arr α) : Res (Arr α) :=
  ksHeapmakeLoop lt lsize l (lsize / 2)

/-- contrib/ksort.h:145-148: the loop of ks_heapsort, from `i` down to 1. -/
def ksHeapsortLoop (lt : α → α → Bool) (size : Nat) (l : Arr α) : Nat → Res (Arr α)
  | 0 => .ok l
  | i + 1 => do
    let l ← exch size l 0 (i + 1)
    let l ← ksHeapadjust lt size 0 (i + 1) l
    ksHeapsortLoop lt size l i

/-- contrib/ksort.h:142-149 `ks_heapsort`; for `lsize = 0` C starts at -1 and does nothing either. -/
def ksHeapsort (lt : α → α → Bool) (lsize : Nat) (l : Arr α) : Res (Arr α) :=
  ksHeapsortLoop lt lsize l (lsize - 1)

/-! ### insertion sort and comb sort -/

/-- contrib/ksort.h:154-156: the inner loop. -/
def ksInsert (lt : α → α → Bool) (n s : Nat) (a : Arr α) (j : Nat) : Res (Arr α) :=
  if s < j then do
    if ← ltAt lt n a j (j - 1) then do
      let a ← exch n a j (j - 1)
      ksInsert lt n s a (j - 1)
    else pure a
  else pure a
partial_fixpoint

/-- contrib/ksort.h:153-157: the outer loop. -/
def ksInsertLoop (lt : α → α → Bool) (n s t : Nat) (a : Arr α) (i : Nat) : Res (Arr α) :=
  if i < t then do
    let a ← ksInsert lt n s a i
    ksInsertLoop lt n s t a (i + 1)
  else pure a
partial_fixpoint

/-- contrib/ksort.h:150-157 `__ks_insertsort`: the elements from `s` up to `t` of an array of `n`. -/
def ksInsertsort (lt : α → α → Bool) (n s t : Nat) (a : Arr α) : Res (Arr α) :=
  ksInsertLoop lt n s t a (s + 1)

/-- contrib/ksort.h:170-176: one pass with a gap, from `i` up to `e`. -/
def ksCombPass (lt : α → α → Bool) (n gap e : Nat) (a : Arr α) (i : Nat) (sw : Bool) :
    Res (Arr α × Bool) :=
  if i < e then do
    if ← ltAt lt n a (i + gap) i then do
      let a ← exch n a i (i + gap)
      ksCombPass lt n gap e a (i + 1) true
    else ksCombPass lt n gap e a (i + 1) sw
  else pure (a, sw)
partial_fixpoint

/-- contrib/ksort.h:165-168: the next gap; `shrink` stands for the division of a `double`. -/
def ksGap (shrink : Nat → Nat) (gap : Nat) : Nat :=
  if 2 < gap then if shrink gap = 9 ∨ shrink gap = 10 then 11 else shrink gap else gap

/-- contrib/ksort.h:164-177: the passes on the `len` elements from `s` on.  `a + n - gap` must stay
inside the array. -/
def ksCombLoop (shrink : Nat → Nat) (lt : α → α → Bool) (n s len : Nat) (a : Arr α) (gap : Nat) :
    Res (Arr α × Nat) :=
  if len < ksGap shrink gap then .ub
  else do
    let r ← ksCombPass lt n (ksGap shrink gap) (s + len - ksGap shrink gap) a s false
    if r.2 ∨ 2 < ksGap shrink gap then ksCombLoop shrink lt n s len r.1 (ksGap shrink gap)
    else pure (r.1, ksGap shrink gap)
partial_fixpoint

/-- contrib/ksort.h:158-179 `ks_combsort` on the `len` elements from `s` on. -/
def ksCombsort (shrink : Nat → Nat) (lt : α → α → Bool) (n s len : Nat) (a : Arr α) :
    Res (Arr α) := do
  let r ← ksCombLoop shrink lt n s len a len
  if r.2 ≠ 1 then ksInsertsort lt n s (s + len) r.1 else pure r.1

/-! ### introsort -/

/-- contrib/ksort.h:209: `do ++i; while (__sort_lt(*i, rp));` -/
def ksUp (lt : α → α → Bool) (n : Nat) (rp : α) (a : Arr α) (i : Nat) : Res Nat := do
  let x ← rd n a (i + 1)
  if lt x rp then ksUp lt n rp a (i + 1) else pure (i + 1)
partial_fixpoint

/-- contrib/ksort.h:210: `do --j; while (i <= j && __sort_lt(rp, *j));`  A pointer before the array
is undefined. -/
def ksDown (lt : α → α → Bool) (n : Nat) (rp : α) (a : Arr α) (i j : Nat) : Res Nat :=
  if j = 0 then .ub
  else if i ≤ j - 1 then do
    let x ← rd n a (j - 1)
    if lt rp x then ksDown lt n rp a i (j - 1) else pure (j - 1)
  else pure (j - 1)
partial_fixpoint

/-- contrib/ksort.h:208-213: the partition; the array and `i`. -/
def ksPart (lt : α → α → Bool) (n : Nat) (rp : α) (a : Arr α) (i j : Nat) : Res (Arr α × Nat) := do
  let i ← ksUp lt n rp a i
  let j ← ksDown lt n rp a i j
  if j ≤ i then pure (a, i)
  else do
    let a ← exch n a i j
    ksPart lt n rp a i j
partial_fixpoint

/-- contrib/ksort.h:203-205: the place of the median of `*i`, `*j` and the middle `*k`. -/
def ksMedian (lt : α → α → Bool) (n : Nat) (a : Arr α) (i j k : Nat) : Res Nat := do
  if ← ltAt lt n a k i then do
    if ← ltAt lt n a k j then pure j else pure k
  else do
    if ← ltAt lt n a j i then pure i else pure j

/-- contrib/ksort.h:202-214: choose the pivot, partition `s..t`, put the pivot to its place; the
array and the place. -/
def ksSplit (lt : α → α → Bool) (n : Nat) (a : Arr α) (s t : Nat) : Res (Arr α × Nat) := do
  let k ← ksMedian lt n a s t (s + (t - s) / 2 + 1)
  let rp ← rd n a k
  let a ← (if k ≠ t then exch n a k t else pure a)
  let r ← ksPart lt n rp a s t
  let a ← exch n r.1 r.2 t
  pure (a, r.2)

/-- An entry of the stack of introsort (contrib/ksort.h:69-72). -/
structure KsFrame where
  left : Nat
  right : Nat
  depth : Int
  deriving DecidableEq

/-- `++top` with the entry stored; `cap` is the number of entries allocated. -/
def ksPush (cap : Nat) (st : List KsFrame) (f : KsFrame) : Res (List KsFrame) :=
  if st.length < cap then .ok (f :: st) else .ub

/-- contrib/ksort.h:215-221: the two halves around `i`; the new `s`, `t` and stack. -/
def ksHalves (cap s t i : Nat) (d : Int) (st : List KsFrame) : Res (Nat × Nat × List KsFrame) :=
  if t - i < i - s then do
    let st ← (if 16 < i - s then ksPush cap st ⟨s, i - 1, d⟩ else pure st)
    pure (if 16 < t - i then i + 1 else t, t, st)
  else do
    let st ← (if 16 < t - i then ksPush cap st ⟨i + 1, t, d⟩ else pure st)
    pure (s, if 16 < i - s then i - 1 else s, st)

/-- contrib/ksort.h:195-229: the main loop. -/
def ksIntroLoop (shrink : Nat → Nat) (lt : α → α → Bool) (n cap : Nat) (a : Arr α) (s t : Nat)
    (d : Int) (st : List KsFrame) : Res (Arr α) :=
  if s < t then
    if d - 1 = 0 then do
      let a ← ksCombsort shrink lt n s (t - s + 1) a
      ksIntroLoop shrink lt n cap a s s (d - 1) st
    else do
      let r ← ksSplit lt n a s t
      let h ← ksHalves cap s t r.2 (d - 1) st
      ksIntroLoop shrink lt n cap r.1 h.1 h.2.1 (d - 1) h.2.2
  else
    match st with
    | [] => ksInsertsort lt n 0 n a
    | f :: st => ksIntroLoop shrink lt n cap a f.left f.right f.depth st
partial_fixpoint

/-- contrib/ksort.h:192: `for (d = 2; 1ul<<d < n; ++d);` -/
def ksDepth (n d : Nat) : Res Nat :=
  if 2 ^ d < n then ksDepth n (d + 1) else pure d
partial_fixpoint

/-- contrib/ksort.h:180-230 `ks_introsort` -/
def ksIntrosort (shrink : Nat → Nat) (lt : α → α → Bool) (n : Nat) (a : Arr α) : Res (Arr α) :=
  if n < 1 then pure a
  else if n = 2 then do
    if ← ltAt lt n a 1 0 then exch n a 0 1 else pure a
  else do
    let d ← ksDepth n 2
    ksIntroLoop shrink lt n (8 * d + 2) a 0 (n - 1) (2 * d) []

/-! ### the k-th smallest element -/

/-- contrib/ksort.h:250: `do ++ll; while (__sort_lt(*ll, *low));` -/
def ksSmallUp (lt : α → α → Bool) (n : Nat) (a : Arr α) (low ll : Nat) : Res Nat := do
  if ← ltAt lt n a (ll + 1) low then ksSmallUp lt n a low (ll + 1) else pure (ll + 1)
partial_fixpoint

/-- contrib/ksort.h:251: `do --hh; while (__sort_lt(*low, *hh));` -/
def ksSmallDown (lt : α → α → Bool) (n : Nat) (a : Arr α) (low hh : Nat) : Res Nat :=
  if hh = 0 then .ub
  else do
    if ← ltAt lt n a low (hh - 1) then ksSmallDown lt n a low (hh - 1) else pure (hh - 1)
partial_fixpoint

/-- contrib/ksort.h:249-254: the partition; the array, `ll` and `hh`. -/
def ksSmallPart (lt : α → α → Bool) (n : Nat) (a : Arr α) (low ll hh : Nat) :
    Res (Arr α × Nat × Nat) := do
  let ll ← ksSmallUp lt n a low ll
  let hh ← ksSmallDown lt n a low hh
  if hh < ll then pure (a, ll, hh)
  else do
    let a ← exch n a ll hh
    ksSmallPart lt n a low ll hh
partial_fixpoint

/-- `if (__sort_lt(a[i], a[j])) KSORT_SWAP(a[i], a[j])` -/
def ksOrder (lt : α → α → Bool) (n : Nat) (a : Arr α) (i j : Nat) : Res (Arr α) := do
  if ← ltAt lt n a i j then exch n a i j else pure a

/-- contrib/ksort.h:237-258: the loop; the array and the element found. -/
def ksSmallLoop (lt : α → α → Bool) (n k : Nat) (a : Arr α) (low high : Nat) : Res (Arr α × α) :=
  if high ≤ low then do
    let x ← rd n a k
    pure (a, x)
  else if high = low + 1 then do
    let a ← ksOrder lt n a high low
    let x ← rd n a k
    pure (a, x)
  else do
    let a ← ksOrder lt n a high (low + (high - low) / 2)
    let a ← ksOrder lt n a high low
    let a ← ksOrder lt n a low (low + (high - low) / 2)
    let a ← exch n a (low + (high - low) / 2) (low + 1)
    let r ← ksSmallPart lt n a low (low + 1) high
    let a ← exch n r.1 low r.2.2
    ksSmallLoop lt n k a (if r.2.2 ≤ k then r.2.1 else low)
      (if k ≤ r.2.2 then r.2.2 - 1 else high)
partial_fixpoint

/-- contrib/ksort.h:233-259 `ks_ksmall` for `n ≥ 1`. -/
def ksKsmall (lt : α → α → Bool) (n : Nat) (arr : Arr α) (kk : Nat) : Res (Arr α × α) :=
  ksSmallLoop lt n kk arr 0 (n - 1)

/-! ### shuffle -/

/-- contrib/ksort.h:263-267: the loop from `i` down to 2; `rnd i` is `(int)(drand48() * i)`. -/
def ksShuffleLoop (rnd : Nat → Nat) (n : Nat) (a : Arr α) : Nat → Res (Arr α)
  | 0 => .ok a
  | 1 => .ok a
  | i + 2 => do
    let a ← exch n a (rnd (i + 2)) (i + 1)
    ksShuffleLoop rnd n a (i + 1)

/-- contrib/ksort.h:260-268 `ks_shuffle` -/
def ksShuffle (rnd : Nat → Nat) (n : Nat) (a : Arr α) : Res (Arr α) := ksShuffleLoop rnd n a n

/-! ### sample -/

/-- The operations on `double` that ks_sample uses. -/
structure Doubles where
  D : Type
  one : D
  lt : D → D → Bool
  sub : D → D → D
  mulInt : D → Int → D
  divInt : D → Int → D

/-- contrib/ksort.h:275: `while (x < z) z -= z * i / (pop--);`; the new `pop`. -/
def ksSampleLoop (F : Doubles) (x : F.D) (i : Int) (z : F.D) (pop : Int) : Res Int :=
  if F.lt x z then do
    let pop' ← ckInt (pop - 1)
    ksSampleLoop F x i (F.sub z (F.divInt (F.mulInt z i) pop)) pop'
  else pure pop
partial_fixpoint

/-- contrib/ksort.h:276: exchange `a[k]` with `a[n-pop-1]`. -/
def ksSampleSwap (n : Nat) (a : Arr α) (k : Nat) (pop : Int) : Res (Arr α) :=
  if (k : Int) ≠ n - pop - 1 then
    if n - pop - 1 < 0 then .ub else exch n a k ((n : Int) - pop - 1).toNat
  else pure a

/-- contrib/ksort.h:272-278: the loop from `i` down to 0; `x k` is the k-th answer of drand48. -/
def ksSampleRounds (F : Doubles) (x : Nat → F.D) (n : Nat) (a : Arr α) (k : Nat) (pop : Int) :
    Nat → Res (Arr α)
  | 0 => do
    let pop ← ksSampleLoop F (x k) 0 F.one pop
    ksSampleSwap n a k pop
  | i + 1 => do
    let pop ← ksSampleLoop F (x k) (i + 1 : Nat) F.one pop
    let a ← ksSampleSwap n a k pop
    ksSampleRounds F x n a (k + 1) pop i

/-- contrib/ksort.h:269-279 `ks_sample` -/
def ksSample (F : Doubles) (x : Nat → F.D) (n r : Nat) (a : Arr α) : Res (Arr α) :=
  ksSampleRounds F x n a 0 n r

/-! ### QSORT -/

/-- contrib/qsort.h:41-57 `Q_SORT3` -/
def qSort3 (lt : α → α → Bool) (n : Nat) (a : Arr α) (a1 a2 a3 : Nat) : Res (Arr α) := do
  if ← ltAt lt n a a2 a1 then do
    if ← ltAt lt n a a3 a2 then exch n a a1 a3
    else do
      let a ← exch n a a1 a2
      if ← ltAt lt n a a3 a2 then exch n a a2 a3 else pure a
  else do
    if ← ltAt lt n a a3 a2 then do
      let a ← exch n a a2 a3
      if ← ltAt lt n a a2 a1 then exch n a a1 a2 else pure a
    else pure a

/-- contrib/qsort.h:81-86: the loop of `Q_PARTITION`; the array and `q_j`.  The two inner loops are
those of ks_ksmall. -/
def qPartLoop (lt : α → α → Bool) (n : Nat) (a : Arr α) (l i j : Nat) : Res (Arr α × Nat) := do
  let i ← ksSmallUp lt n a l i
  let j ← ksSmallDown lt n a l j
  if j ≤ i then pure (a, j)
  else do
    let a ← exch n a i j
    qPartLoop lt n a l i j
partial_fixpoint

/-- contrib/qsort.h:62-92 `Q_PARTITION`; the array and the place of the median: the subfiles are
`l..j-1` and `j+1..r`. -/
def qPartition (lt : α → α → Bool) (n : Nat) (a : Arr α) (l r : Nat) : Res (Arr α × Nat) := do
  let a ← qSort3 lt n a (l + 1) (l + (r - l) / 2) r
  let a ← exch n a l (l + (r - l) / 2)
  let p ← qPartLoop lt n a l (l + 1) r
  let a ← exch n p.1 l p.2
  pure (a, p.2)

/-- contrib/qsort.h:153-172 `Q_SUBFILES`; the new `q_l`, `q_r` and stack.  `cap` is the number of
entries of `q_st`. -/
def qSubfiles (cap l1 r1 l2 r2 : Nat) (st : List (Nat × Nat)) : Res (Nat × Nat × List (Nat × Nat)) :=
  if l2 = r2 then pure (l1, r1, st)
  else if st.length < cap then pure (l2, r2, (l1, r1) :: st)
  else .ub

/-- contrib/qsort.h:130-149: the main loop.  Unsigned arithmetic that would wrap is undefined here:
`q_j - 1` and the sizes of the subfiles. -/
def qLoop (lt : α → α → Bool) (n cap : Nat) (a : Arr α) (l r : Nat) (st : List (Nat × Nat)) :
    Res (Arr α) :=
  if 16 ≤ r - l + 1 then do
    let p ← qPartition lt n a l r
    if l < p.2 ∧ p.2 < r then do
      let s ← (if r - (p.2 + 1) ≤ p.2 - 1 - l then qSubfiles cap l (p.2 - 1) (p.2 + 1) r st
        else qSubfiles cap (p.2 + 1) r l (p.2 - 1) st)
      qLoop lt n cap p.1 s.1 s.2.1 s.2.2
    else .ub
  else do
    let a ← ksInsertLoop lt n l (r + 1) a (l + 1)
    match st with
    | [] => pure a
    | f :: st => qLoop lt n cap a f.1 f.2 st
partial_fixpoint

/-- contrib/qsort.h:176-182 `QSORT`, with a count `Q_N` of a type of more than 4 bytes (48 entries
on the stack) or at most 4 (32). -/
def qSort (lt : α → α → Bool) (wide : Bool) (n : Nat) (a : Arr α) : Res (Arr α) :=
  if 1 < n then qLoop lt n (if wide then 48 else 32) a 0 (n - 1) [] else pure a

end Minilib

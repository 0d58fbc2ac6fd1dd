import Verif.C.Mem
/-
Specification of sorting.
-/

set_option autoImplicit false

namespace Spec

variable {α : Type}

/-- A strict weak order: no two elements precede each other, and what does not precede is passed on. -/
structure WeakOrder (lt : α → α → Bool) : Prop where
  asymm : ∀ x y, lt x y = true → lt y x = false
  negtrans : ∀ x y z, lt x y = false → lt y z = false → lt x z = false

/-- The first `n` elements of an array. -/
def elems (n : Nat) (a : Nat → α) : List α := (List.range n).map a

/-- No element precedes an earlier one. -/
def Sorted (lt : α → α → Bool) (l : List α) : Prop := l.Pairwise (fun x y => lt y x = false)

/-- Neither element precedes the other. -/
def equiv (lt : α → α → Bool) (x y : α) : Bool := !lt x y && !lt y x

/-- `r` is `l` sorted: the same elements, ordered. -/
structure SortOf (lt : α → α → Bool) (l r : List α) : Prop where
  perm : r.Perm l
  sorted : Sorted lt r

/-- `r` is `l` sorted stably: elements that are equivalent keep their order. -/
structure StableSortOf (lt : α → α → Bool) (l r : List α) : Prop extends SortOf lt l r where
  stable : ∀ x, r.filter (equiv lt x) = l.filter (equiv lt x)

/-- What the division by the shrink factor must do for comb sort to end: it makes a gap smaller, and
a gap up to 11 does not become 9 or 10 (which are replaced by 11). -/
structure Shrinks (shrink : Nat → Nat) : Prop where
  less : ∀ g, 2 < g → shrink g < g
  eleven : ∀ g, g ≤ 11 → shrink g < 9

/-- The element at `k` of `n` is where sorting would put it: nothing before it is larger, nothing
after it smaller. -/
def AtPlace (lt : α → α → Bool) (n k : Nat) (a : Nat → α) : Prop :=
  (∀ x, x < k → lt (a k) (a x) = false) ∧ (∀ y, k < y → y < n → lt (a y) (a k) = false)

end Spec

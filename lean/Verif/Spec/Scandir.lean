import Verif.C.Mem
/-
Directory records and their names.
-/

set_option autoImplicit false

namespace Spec

/-- A record as the kernel delivers it: inode, offset, its own length in bytes 16 and 17, the name from byte 18 on, ended
by a NUL. -/
structure GoodRec (r : List Byte) : Prop where
  len : 19 ≤ r.length
  reclen : (r.getD 16 0#8).toNat + 256 * (r.getD 17 0#8).toNat = r.length
  nul : 0#8 ∈ r.drop 18

/-- The name in a record. -/
def recName (r : List Byte) : List Byte := (r.drop 18).takeWhile (fun b => b != 0#8)

/-- The comparison is a total preorder ("less or equal" is `≤ 0`). -/
structure TotalPre (f : List Byte → List Byte → Int) : Prop where
  total : ∀ x y, f x y ≤ 0 ∨ f y x ≤ 0
  trans : ∀ x y z, f x y ≤ 0 → f y z ≤ 0 → f x z ≤ 0

/-- The order the listing must have: that of the directory without a comparison, sorted with one. -/
def ListedAs (cmp : Option (List Byte → List Byte → Int)) (sel out : List (List Byte)) : Prop :=
  match cmp with
  | none => out = sel
  | some f => out.Perm sel ∧ out.Pairwise (fun x y => f x y ≤ 0)

end Spec

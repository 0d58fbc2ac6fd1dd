import Verif.C.Mem
/-
Specification vocabulary for the string functions, independent of the models.
-/

set_option autoImplicit false

namespace Spec

/-- `l` is the text found at `p` when at most `n` bytes may be looked at: `n` non-NUL bytes, or
fewer followed by a NUL. -/
def StrN (m : Mem) (p n : Nat) (l : List Byte) : Prop :=
  m.Holds p l ∧ (∀ b ∈ l, b ≠ 0#8) ∧
    (l.length = n ∨ (l.length < n ∧ m (p + l.length) = some 0#8))

instance (m : Mem) (p n : Nat) (l : List Byte) : Decidable (StrN m p n l) :=
  inferInstanceAs (Decidable (_ ∧ _))

/-- The two address ranges `[p, p+n)` and `[q, q+k)` have no address in common. -/
def Disjoint (p n q k : Nat) : Prop := ∀ a, ¬ (p ≤ a ∧ a < p + n ∧ q ≤ a ∧ a < q + k)

/-- `i` is the first position at which `little` occurs in `big`. -/
def FirstOcc (big little : List Byte) (i : Nat) : Prop :=
  little <+: big.drop i ∧ i ≤ big.length ∧ ∀ j, j < i → ¬ little <+: big.drop j

/-- ASCII lower case: 'A'..'Z' to 'a'..'z', everything else unchanged. -/
def lower (b : Byte) : Byte := if 0x41 ≤ b ∧ b ≤ 0x5a then b + 0x20 else b

/-- Cut `s` at the delimiters; `cur` is the piece being collected. -/
def piecesAux (isDelim : Byte → Bool) : List Byte → List Byte → List (List Byte)
  | [], cur => if cur.isEmpty then [] else [cur]
  | b :: s, cur =>
    if isDelim b then
      (if cur.isEmpty then [] else [cur]) ++ piecesAux isDelim s []
    else piecesAux isDelim s (cur ++ [b])

/-- The maximal delimiter-free non-empty pieces of `s`, in order. -/
def pieces (isDelim : Byte → Bool) (s : List Byte) : List (List Byte) := piecesAux isDelim s []

/-- At the addresses `ps` (in this order) `m` holds the strings `ts`. -/
def AllStr (m : Mem) : List Nat → List (List Byte) → Prop
  | [], [] => True
  | a :: ps, t :: ts => m.IsStr a t ∧ AllStr m ps ts
  | _, _ => False

end Spec

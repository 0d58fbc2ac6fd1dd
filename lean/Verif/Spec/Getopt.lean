import Verif.C.Mem
/-
Specification of the scanning of an argument vector.
-/

set_option autoImplicit false

namespace Spec

/-- The options of a program: the character, and whether it takes an argument. -/
abbrev Opts := List (BitVec 8 × Bool)

/-- The option string: every character, followed by a colon when it takes an argument. -/
def optText (opts : Opts) : List (BitVec 8) := opts.flatMap (fun o => if o.2 then [o.1, 58#8] else [o.1])

/-- Option characters are neither NUL nor a colon. -/
def OptsOk (opts : Opts) : Prop := ∀ o ∈ opts, o.1 ≠ 0#8 ∧ o.1 ≠ 58#8

instance (opts : Opts) : Decidable (OptsOk opts) := inferInstanceAs (Decidable (∀ _ ∈ _, _))

/-- Does the option take an argument?  None when there is no such option. -/
def optKind (opts : Opts) (c : BitVec 8) : Option Bool := (opts.find? (fun o => o.1 = c)).map (·.2)

/-- A letter or a digit. -/
def Alnum (c : BitVec 8) : Prop :=
  (48 ≤ c.toNat ∧ c.toNat ≤ 57) ∨ (65 ≤ c.toNat ∧ c.toNat ≤ 90) ∨ (97 ≤ c.toNat ∧ c.toNat ≤ 122)

instance (c : BitVec 8) : Decidable (Alnum c) := inferInstanceAs (Decidable (_ ∨ _))

/-- The characters behind the dash of a word that starts with a dash and a letter or digit. -/
def cluster : List (BitVec 8) → Option (List (BitVec 8))
  | d :: c :: cs => if d = 45#8 ∧ Alnum c then some (c :: cs) else none
  | _ => none

/-- How the scanning ends: with that many words left, at an unknown option, at an option whose argument is missing. -/
inductive OptEnd where
  | done (left : Nat)
  | unknown (c : BitVec 8)
  | missing (c : BitVec 8)
deriving DecidableEq

/-- Put an option in front. -/
def optCons (e : BitVec 8 × Option (List (BitVec 8))) (r : List (BitVec 8 × Option (List (BitVec 8))) × OptEnd) :
    List (BitVec 8 × Option (List (BitVec 8))) × OptEnd := (e :: r.1, r.2)

/-- The options with their arguments, in order, and the end.  `cur` are the characters left of the current word, `rest` the
words behind it.  An argument is what follows the option in its word, or else the next word. -/
def scan (opts : Opts) (cur : List (BitVec 8)) (rest : List (List (BitVec 8))) :
    List (BitVec 8 × Option (List (BitVec 8))) × OptEnd :=
  match cur, rest with
  | [], [] => ([], .done 0)
  | [], w :: rest =>
    if w = [45#8, 45#8] then ([], .done rest.length)
    else match cluster w with
      | none => ([], .done (rest.length + 1))
      | some cs => scan opts cs rest
  | c :: cs, rest =>
    match optKind opts c with
    | none => ([], .unknown c)
    | some false => optCons (c, none) (scan opts cs rest)
    | some true =>
      match cs, rest with
      | d :: cs, rest => optCons (c, some (d :: cs)) (scan opts [] rest)
      | [], w :: rest => optCons (c, some w) (scan opts [] rest)
      | [], [] => ([], .missing c)
termination_by (rest.length, cur.length)

end Spec

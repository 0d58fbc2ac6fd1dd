import Verif.Spec.Getopt
/-
Specification of the scanning of an argument vector with long options and operands between the options.
-/

set_option autoImplicit false

namespace Spec

/-- Does a long option take an argument? -/
inductive LKind where
  | no
  | required
  | optional
deriving DecidableEq

/-- A long option. -/
structure LOpt where
  name : List (BitVec 8)
  kind : LKind
deriving DecidableEq

/-- `x` is a proper extension of `w`. -/
def Extends (w x : List (BitVec 8)) : Prop := w <+: x ∧ w ≠ x

instance (w x : List (BitVec 8)) : Decidable (Extends w x) := inferInstanceAs (Decidable (_ ∧ _))

/-- The indices, counted from `i`, of the names that extend `w`. -/
def exts (w : List (BitVec 8)) : Nat → List (List (BitVec 8)) → List Nat
  | _, [] => []
  | i, x :: xs => if Extends w x then i :: exts w (i + 1) xs else exts w (i + 1) xs

/-- The outcome of looking for a name. -/
inductive Pick where
  | found (i : Nat)
  | unknown
  | ambiguous
deriving DecidableEq

/-- The name itself wins; otherwise an abbreviation must have a single extension. -/
def pick (names : List (List (BitVec 8))) (w : List (BitVec 8)) : Pick :=
  match names.findIdx? (fun x => decide (x = w)) with
  | some i => .found i
  | none =>
    match exts w 0 names with
    | [] => .unknown
    | [i] => .found i
    | _ => .ambiguous

/-- A word of the argument vector. -/
inductive WordIs where
  | dashes
  | operand
  | short (cs : List (BitVec 8))
  | long (l : List (BitVec 8))
deriving DecidableEq

/-- `--` ends the options, `--x` is a long option, `-x` short ones; everything else (also `-` and the empty word) is an operand. -/
def wordKind : List (BitVec 8) → WordIs
  | a :: b :: l => if a = 45#8 then (if b = 45#8 then (if l = [] then .dashes else .long l) else .short (b :: l)) else .operand
  | _ => .operand

/-- The name in `name=value`. -/
def longName (l : List (BitVec 8)) : List (BitVec 8) := l.takeWhile (fun b => decide (b ≠ 61#8))

/-- The value in `name=value`. -/
def longValue (l : List (BitVec 8)) : Option (List (BitVec 8)) :=
  match l.dropWhile (fun b => decide (b ≠ 61#8)) with
  | [] => none
  | _ :: v => some v

/-- An option of the vector, with its argument: a short one, or the long one with that index in the table. -/
inductive OptEv where
  | short (c : BitVec 8) (arg : Option (List (BitVec 8)))
  | long (i : Nat) (arg : Option (List (BitVec 8)))
deriving DecidableEq

/-- The end: all options reported, with the operands before and behind the `--`; or an error. -/
inductive LongEnd where
  | done (before after : List (List (BitVec 8)))
  | unknown (c : BitVec 8)
  | missing (c : BitVec 8)
  | unknownLong (l : List (BitVec 8))
  | ambiguousLong (l : List (BitVec 8))
  | missingLong (i : Nat)
  | extraLong (i : Nat)
deriving DecidableEq

/-- The kind of the option with that index. -/
def kindAt (longs : List LOpt) (i : Nat) : LKind :=
  match longs[i]? with
  | some o => o.kind
  | none => .no

/-- The option meant by `name` or `name=value`. -/
def longPick (longs : List LOpt) (l : List (BitVec 8)) : Pick := pick (longs.map (·.name)) (longName l)

/-- Put an option in front. -/
def evCons (e : OptEv) (r : List OptEv × LongEnd) : List OptEv × LongEnd := (e :: r.1, r.2)

/-- The options with their arguments, and the end.  `cur` are the characters left of the current cluster of short options, `rest` the
words behind, `before` the operands met so far. -/
def lscan (opts : Opts) (longs : List LOpt) (cur : List (BitVec 8)) (rest before : List (List (BitVec 8))) : List OptEv × LongEnd :=
  match cur, rest with
  | [], [] => ([], .done before [])
  | [], w :: rest =>
    match wordKind w with
    | .dashes => ([], .done before rest)
    | .operand => lscan opts longs [] rest (before ++ [w])
    | .short cs => lscan opts longs cs rest before
    | .long l =>
      match longPick longs l with
      | .unknown => ([], .unknownLong l)
      | .ambiguous => ([], .ambiguousLong l)
      | .found i =>
        match kindAt longs i, longValue l, rest with
        | .required, some v, rest => evCons (.long i (some v)) (lscan opts longs [] rest before)
        | .required, none, w :: rest => evCons (.long i (some w)) (lscan opts longs [] rest before)
        | .required, none, [] => ([], .missingLong i)
        | .optional, v, rest => evCons (.long i v) (lscan opts longs [] rest before)
        | .no, none, rest => evCons (.long i none) (lscan opts longs [] rest before)
        | .no, some _, _ => ([], .extraLong i)
  | c :: cs, rest =>
    match optKind opts c with
    | none => ([], .unknown c)
    | some false => evCons (.short c none) (lscan opts longs cs rest before)
    | some true =>
      match cs, rest with
      | d :: cs, rest => evCons (.short c (some (d :: cs))) (lscan opts longs [] rest before)
      | [], w :: rest => evCons (.short c (some w)) (lscan opts longs [] rest before)
      | [], [] => ([], .missing c)
termination_by (rest.length, cur.length)

/-- No name has two extensions in front of it in the table. -/
def NoShadow (names : List (List (BitVec 8))) : Prop := ∀ i w, names[i]? = some w → (exts w 0 (names.take i)).length ≤ 1

/-- The answer at the end: a colon for a missing argument when the option string starts with a colon. -/
def longAnswer (quiet : Bool) : LongEnd → Int
  | .done _ _ => -1
  | .missing _ => if quiet then 58 else 63
  | .missingLong _ => if quiet then 58 else 63
  | _ => 63

end Spec

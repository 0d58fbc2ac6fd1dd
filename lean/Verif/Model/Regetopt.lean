import Verif.Model.Getopt
/-
Models of /repo/contrib/regetopt/regetopt.c (getopt_long of the library, contrib/regetopt/getopt_long.c).

`argv` is a list of pointers, the last of which is NULL; reading or writing behind it is undefined.  The strings are in byte memory.
The texts of the messages are left out, they are counted.  The `int`s the flags of the table point to are kept apart from the bytes.
-/

set_option autoImplicit false

namespace Minilib
open Mem

/-- contrib/regetopt/include/regetopt.h:33-38 `struct re_option`. -/
structure ReOption where
  name : Nat
  hasArg : Int
  flag : Nat
  val : Int

/-- contrib/regetopt/regetopt.c:14-24: the variables; the vector, `*longindex`, the `int`s at the flags and the number of messages. -/
structure Regetopt where
  optarg : Nat
  optind : Nat
  opterr : Bool
  optopt : Int
  pos : Nat
  optArgc : Int
  argv : List Nat
  longindex : Int
  vars : Nat → Int
  said : Nat

/-- A message when `re_opterr` is set. -/
def reSay (s : Regetopt) : Regetopt := if s.opterr then { s with said := s.said + 1 } else s

/-- contrib/regetopt/regetopt.c:33-36: the search in the option string, `k` characters are left from `i` on; is the next character a
colon? -/
def reFind (m : Mem) (optstring : Nat) (c : Int) : Nat → Nat → Res (Option Bool)
  | 0, _ => pure none
  | k + 1, i => do
    let b ← m.load (optstring + i)
    if b.toInt = c then
      if 0 < k then do
        let d ← m.load (optstring + (i + 1))
        pure (some (d = 58#8))
      else pure (some false)
    else reFind m optstring c k (i + 1)

/-- contrib/regetopt/regetopt.c:37-57: an option that takes an argument. -/
def reShortArg (cur len : Nat) (argc : Int) (s : Regetopt) : Res (Regetopt × Int) :=
  if s.pos + 1 < len then pure ({ s with optarg := cur + s.pos + 1, optind := s.optind + 1, pos := 1 }, s.optopt)
  else if (s.optind : Int) + 1 < argc then do
    let w ← argvAt s.argv (s.optind + 1)
    pure ({ s with optarg := w, optind := s.optind + 2, pos := 1 }, s.optopt)
  else pure (reSay s, 58)

/-- contrib/regetopt/regetopt.c:26-71 `regetopt_short`. -/
def reShort (m : Mem) (optstring : Nat) (argc : Int) (s : Regetopt) : Res (Regetopt × Int) := do
  let cur ← argvAt s.argv s.optind
  let len ← strlen m cur
  let b ← m.load (cur + s.pos)
  let n ← strlen m optstring
  let f ← reFind m optstring b.toInt n 0
  match f with
  | none => pure (reSay { s with optopt := b.toInt }, 63)
  | some true => reShortArg cur len argc { s with optopt := b.toInt }
  | some false => pure ({ s with optopt := b.toInt, pos := s.pos + 1 }, b.toInt)

/-- contrib/regetopt/regetopt.c:94-117: the search in the table; -1 when nothing is found, none for an ambiguity. -/
def reMatch (m : Mem) (cur : Nat) (n : Int) : List ReOption → Nat → Int → Res (Option Int)
  | [], _, _ => .ub
  | o :: l, i, f =>
    if o.name = 0 then pure (some f) else do
      let k ← strlen m o.name
      let e ← (if (k : Int) = n then strncmp m (cur + 2) o.name k else pure 1)
      if e = 0 then pure (some (i : Int))
      else do
        let e ← (if n < (k : Int) then strncmp m (cur + 2) o.name n else pure 1)
        if e = 0 then (if 0 ≤ f then pure none else reMatch m cur n l (i + 1) i)
        else reMatch m cur n l (i + 1) f

/-- contrib/regetopt/regetopt.c:126-151: the argument of a long option; none for an error. -/
def reLongArg (argc : Int) (hasArg : Int) (eq : Nat) (s : Regetopt) : Res (Option Regetopt) :=
  if hasArg = 1 then
    if eq ≠ 0 then pure (some { s with optarg := eq + 1 })
    else if (s.optind : Int) + 1 < argc then do
      let w ← argvAt s.argv (s.optind + 1)
      pure (some { s with optarg := w, optind := s.optind + 1 })
    else pure none
  else if hasArg = 2 then
    pure (some { s with optarg := if eq ≠ 0 then eq + 1 else 0 })
  else pure (some s)

/-- contrib/regetopt/regetopt.c:153-167: the end of `regetopt_long`. -/
def reLongEnd (li : Bool) (index : Int) (o : ReOption) (s : Regetopt) : Regetopt × Int :=
  let s := { s with optind := s.optind + 1 }
  let s := if li then { s with longindex := index } else s
  if o.flag = 0 then (s, o.val)
  else ({ s with vars := fun a => if a = o.flag then o.val else s.vars a }, 1)

/-- contrib/regetopt/regetopt.c:83-168 `regetopt_long`. -/
def reLong (m : Mem) (longs : List ReOption) (li : Bool) (argc : Int) (s : Regetopt) : Res (Regetopt × Int) := do
  let cur ← argvAt s.argv s.optind
  let eq ← strchr m cur 61
  let n ← (if eq ≠ 0 then pure ((eq : Int) - cur - 2) else do
    let k ← strlen m cur
    pure ((k : Int) - 2))
  let f ← reMatch m cur n longs 0 (-1)
  match f with
  | none => pure (reSay s, 63)
  | some index =>
    if index < 0 then pure ({ s with said := s.said + 1 }, 63)
    else
      match longs[index.toNat]? with
      | none => .ub
      | some o => do
        let r ← reLongArg argc o.hasArg eq s
        match r with
        | none => pure (reSay s, 63)
        | some s => pure (reLongEnd li index o s)

/-- `argv[i] = p`. -/
def argvSet (argv : List Nat) (i p : Nat) : Res (List Nat) := if i < argv.length then .ok (argv.set i p) else .ub

/-- contrib/regetopt/regetopt.c:172-174: the loop of `reorder_option`, `k` rounds from `i` on. -/
def reShift : Nat → Nat → List Nat → Res (List Nat)
  | 0, _, a => pure a
  | k + 1, i, a => do
    let p ← argvAt a i
    let a ← argvSet a (i - 1) p
    reShift k (i + 1) a

/-- contrib/regetopt/regetopt.c:170-176 `reorder_option`. -/
def reReorder (argc : Nat) (s : Regetopt) : Res (List Nat) := do
  let cur ← argvAt s.argv s.optind
  let a ← reShift (argc - (s.optind + 1)) (s.optind + 1) s.argv
  argvSet a (argc - 1) cur

/-- contrib/regetopt/regetopt.c:201-202 `is_option`. -/
def reIsOption (m : Mem) (cur len : Nat) : Res Bool :=
  if 2 < len then do
    let a ← m.load cur
    pure (a = 45#8)
  else if len = 2 then do
    let a ← m.load cur
    let b ← m.load (cur + 1)
    pure (a = 45#8 ∧ b ≠ 45#8)
  else pure false

/-- contrib/regetopt/regetopt.c:211 `is_long`. -/
def reIsLong (m : Mem) (cur len : Nat) : Res Bool :=
  if 2 < len then do
    let a ← m.load cur
    let b ← m.load (cur + 1)
    pure (a = 45#8 ∧ b = 45#8)
  else pure false

/-- contrib/regetopt/regetopt.c:186-225: from `begin_parse` on; `dd` is the address of the literal `"--"`. -/
def regetoptLoop (m : Mem) (dd optstring : Nat) (longs : List ReOption) (li : Bool) (argc : Nat) (s : Regetopt) : Res (Regetopt × Int) :=
  if s.optArgc ≤ (s.optind : Int) then pure (s, -1) else do
    let cur ← argvAt s.argv s.optind
    let len ← strlen m cur
    let d ← strcmp m cur dd
    if d = 0 then pure ({ s with optind := s.optind + 1 }, -1)
    else do
      let o ← reIsOption m cur len
      if o = false then do
        let a ← reReorder argc s
        regetoptLoop m dd optstring longs li argc { s with argv := a, optArgc := s.optArgc - 1 }
      else do
        let l ← reIsLong m cur len
        if l = false then
          if len ≤ s.pos then regetoptLoop m dd optstring longs li argc { s with pos := 1, optind := s.optind + 1 }
          else reShort m optstring s.optArgc s
        else reLong m longs li s.optArgc s
partial_fixpoint

/-- contrib/regetopt/regetopt.c:182-184: the first call. -/
def reInit (argc : Nat) (s : Regetopt) : Regetopt := if s.optArgc < 0 then { s with optArgc := argc } else s

/-- contrib/regetopt/regetopt.c:178-225 `regetopt`. -/
def regetopt (m : Mem) (dd optstring : Nat) (longs : List ReOption) (li : Bool) (argc : Nat) (s : Regetopt) : Res (Regetopt × Int) :=
  regetoptLoop m dd optstring longs li argc (reInit argc s)

end Minilib

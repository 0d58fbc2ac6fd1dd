import Verif.Spec.Userdb
/-
What the calls about the groups of the process do, as seen by a reader of the two files.
-/

set_option autoImplicit false

namespace Spec

/-- A call. -/
inductive IdOp where
  | pw (op : PwOp)
  | getgroups (max : Nat)
  | initgroups (p : Nat) (name : List Byte) (group : Nat)
  | setgroups (l : List Nat)
  | setgid (g : Nat)

/-- The process, as the kernel knows it. -/
structure Proc where
  uid : Nat
  gid : Nat
  groups : List Nat
  root : Bool
deriving DecidableEq

/-- The call of the passwd functions within a call. -/
def IdOp.pwOp (c : Proc) : IdOp → Option PwOp
  | .pw op => some op
  | .getgroups _ => some (.uid c.uid)
  | .initgroups p name _ => some (.nam p name)
  | _ => none

/-- What a reader remembers of the passwd file after a call. -/
def idMind (pls : List PwLine) (k : PwMind) (c : Proc) (op : IdOp) : PwMind :=
  match op.pwOp c with
  | some o => pwNext pls k o
  | none => k

/-- The list of `gs` for `max` cells: their number, when there is a cell more; else -1. -/
def listed (gs : List Nat) (max : Nat) : Int × List Nat :=
  if gs.length < max then (gs.length, gs) else (-1, gs.take max)

/-- The answer of a call, the groups listed, and the process afterwards.  getgroups does not ask the kernel but lists the groups
of the file that have the user as a member; initgroups sets these and the group of the passwd file. -/
def idCall (pls : List PwLine) (gls : List GrLine) (k : PwMind) (c : Proc) : IdOp → (Int × List Nat) × Proc
  | .pw _ => ((0, []), c)
  | .getgroups max =>
    match pwAnswer pls k (.uid c.uid) with
    | none => ((-1, []), c)
    | some e => (listed (groupsOf gls e.name) max, c)
  | .initgroups p name _ =>
    match pwAnswer pls k (.nam p name) with
    | none => ((-1, []), c)
    | some e =>
      if c.root = true ∧ (groupsOf gls name).length < 128 then
        ((0, []), { c with groups := groupsOf gls name, gid := decValue e.gid })
      else ((-1, []), c)
  | .setgroups l =>
    if c.root = true ∧ l.length ≤ 65536 ∧ ∀ g ∈ l, g < 4294967295 then ((0, []), { c with groups := l }) else ((-1, []), c)
  | .setgid g =>
    if g < 4294967295 ∧ (c.root = true ∨ g = c.gid) then ((0, []), { c with gid := g }) else ((-1, []), c)

/-- The answers to a list of calls, and the process at the end. -/
def idCalls (pls : List PwLine) (gls : List GrLine) : PwMind → Proc → List IdOp → List (Int × List Nat) × Proc
  | _, c, [] => ([], c)
  | k, c, op :: ops =>
    let r := idCall pls gls k c op
    let q := idCalls pls gls (idMind pls k c op) r.2 ops
    (r.1 :: q.1, q.2)

/-- No lookup of a name in an opened file before any entry was found. -/
def idSafe (pls : List PwLine) (gls : List GrLine) : PwMind → Proc → List IdOp → Prop
  | _, _, [] => True
  | k, c, op :: ops =>
    (∀ o, op.pwOp c = some o → pwSafeOp k o) ∧ idSafe pls gls (idMind pls k c op) (idCall pls gls k c op).2 ops

end Spec

import Verif.Model.Str
/-
Parts of paths: /repo/src/directories/{basename,dirname}.c.

The functions answer with a string constant (".", "/"), or with a pointer into the path.
-/

set_option autoImplicit false

namespace Minilib
open Mem

/-- A returned `char*`: a string constant with this text, or an address. -/
inductive PathRes where
  | const (text : List Byte)
  | ptr (p : Nat)
deriving DecidableEq

/-- src/directories/basename.c:9-16: the loop.  `q1` and `q2` are `pos1+1` and `pos2+1` (the code starts with pointers to
the byte before the path); the end `p` is returned as well. -/
def basenameLoop (m : Mem) (p q1 q2 : Nat) : Res (Nat × Nat × Nat) := do
  let b ← m.load p
  if b ≠ 0#8 then
    if b = 47#8 then
      if p > q2 then basenameLoop m (p + 1) q2 (p + 1)
      else basenameLoop m (p + 1) q1 (p + 1)
    else basenameLoop m (p + 1) q1 q2
  else pure (p, q1, q2)
partial_fixpoint

/-- src/directories/basename.c:27-32: the cut at the end; `q2` is `pos2+1`. -/
def basenameCut (m : Mem) (q1 q2 : Nat) : Res (Mem × PathRes) := do
  let b ← m.load (q2 - 2)
  let m ← (if b = 47#8 then m.store (q2 - 2) 0#8 else pure m)
  let m ← m.store (q2 - 1) 0#8
  pure (m, .ptr q1)

/-- src/directories/basename.c:2-32 `basename`. -/
def basename (m : Mem) (path : Nat) : Res (Mem × PathRes) :=
  if path = 0 then .ok (m, .const [46#8])
  else do
    let b ← m.load path
    if b = 0#8 then pure (m, .const [46#8])
    else do
      let r ← basenameLoop m path path path
      if r.1 + 1 - r.2.2 > 1 then pure (m, .ptr r.2.2)
      else if r.2.2 = path then pure (m, .ptr path)
      else if r.2.1 = path then pure (m, .ptr (r.2.2 - 1))
      else basenameCut m r.2.1 r.2.2

/-- src/directories/dirname.c:12 and 14: `for (; s[i]=='/'; i--) if (!i) return …`; none is the return. -/
def backOverSlashes (m : Mem) (s : Nat) : Nat → Res (Option Nat)
  | 0 => do
    let b ← m.load (s + 0)
    if b = 47#8 then pure none else pure (some 0)
  | i + 1 => do
    let b ← m.load (s + (i + 1))
    if b = 47#8 then backOverSlashes m s i else pure (some (i + 1))

/-- src/directories/dirname.c:13: `for (; s[i]!='/'; i--) if (!i) return ".";`. -/
def backOverName (m : Mem) (s : Nat) : Nat → Res (Option Nat)
  | 0 => do
    let b ← m.load (s + 0)
    if b ≠ 47#8 then pure none else pure (some 0)
  | i + 1 => do
    let b ← m.load (s + (i + 1))
    if b ≠ 47#8 then backOverName m s i else pure (some (i + 1))

/-- src/directories/dirname.c:15-16: the cut. -/
def dirnameCut (m : Mem) (s i : Nat) : Res (Mem × PathRes) := do
  let m ← m.store (s + i + 1) 0#8
  pure (m, .ptr s)

/-- src/directories/dirname.c:13-16, from the name on. -/
def dirnameTail (m : Mem) (s i : Nat) : Res (Mem × PathRes) := do
  let r ← backOverName m s i
  match r with
  | none => pure (m, .const [46#8])
  | some i => do
    let r ← backOverSlashes m s i
    match r with
    | none => pure (m, .const [47#8])
    | some i => dirnameCut m s i

/-- src/directories/dirname.c:8-17 `dirname`. -/
def dirname (m : Mem) (s : Nat) : Res (Mem × PathRes) :=
  if s = 0 then .ok (m, .const [46#8])
  else do
    let b ← m.load s
    if b = 0#8 then pure (m, .const [46#8])
    else do
      let n ← strlen m s
      let r ← backOverSlashes m s (n - 1)
      match r with
      | none => pure (m, .const [47#8])
      | some i => dirnameTail m s i

end Minilib

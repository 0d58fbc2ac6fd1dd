import Verif.Model.Str
/-
The environment: /repo/src/system/{getenv,putenv,setenv,unsetenv}.c.

`environ` is an array of pointers to strings, ended by NULL.  The array is a list of addresses here (0 is NULL); the
cells behind the NULL which belong to the same array are at the end of the list, and touching a cell outside of it
is undefined.  The strings are in memory.  The `int` indices are natural numbers here: strings and environments have
less than 2^31 bytes and entries.
-/

set_option autoImplicit false

namespace Minilib
open Mem

/-- src/system/getenv.c:8 and src/system/unsetenv.c:15: `for ( b = 0; environ[a][b] == name[b]; b++ ){}`; the bytes
that differ, and the address of the one in the entry. -/
def envCmp (m : Mem) (p q : Nat) : Res (Byte × Byte × Nat) := do
  let b1 ← m.load p
  let b2 ← m.load q
  if b1 = b2 then envCmp m (p + 1) (q + 1) else pure (b1, b2, p)
partial_fixpoint

/-- src/system/getenv.c:5-14 `getenv`; 0 is NULL. -/
def getenv (m : Mem) (name : Nat) : List Nat → Res Nat
  | [] => .ub
  | p :: arr =>
    if p = 0 then .ok 0
    else do
      let r ← envCmp m p name
      if r.1 = 61#8 ∧ r.2.1 = 0#8 then pure (r.2.2 + 1)
      else getenv m name arr

/-- src/system/putenv.c:15: the search for the '='. -/
def putenvPos (m : Mem) (string pos : Nat) : Res Nat := do
  let b ← m.load (string + pos)
  if b ≠ 0#8 ∧ b ≠ 61#8 then putenvPos m string (pos + 1) else pure pos
partial_fixpoint

/-- src/system/putenv.c:27-29 and src/system/setenv.c:36,44-45: the pointer goes to the cell of the NULL, and a new NULL to
the next cell; `rest` are the cells behind the old NULL. -/
def appendCell (p : Nat) (rest : List Nat) : Res (List Nat) :=
  if rest = [] then .ub else .ok (p :: 0 :: rest.tail)

/-- src/system/putenv.c:20-29: the loop, and the new entry at the end. -/
def putenvLoop (m : Mem) (string pos : Nat) : List Nat → Res (List Nat)
  | [] => .ub
  | p :: arr =>
    if p = 0 then appendCell string arr
    else do
      let r ← strncmp m p string pos
      if r = 0 then pure (string :: arr)
      else do
        let l ← putenvLoop m string pos arr
        pure (p :: l)

/-- src/system/putenv.c:10-32 `putenv`: the new array and the answer (-1: error, as with mini_errno). -/
def putenv (m : Mem) (string : Nat) (arr : List Nat) : Res (List Nat × Int) := do
  let pos ← putenvPos m string 0
  let b ← m.load (string + pos)
  if pos = 0 ∨ b = 0#8 then pure (arr, -1)
  else do
    let l ← putenvLoop m string pos arr
    pure (l, 0)

/-- src/system/setenv.c:28-31 and 39-42: `name=value` is put at `p`. -/
def setenvText (m : Mem) (name value p : Nat) : Res Mem := do
  let r ← stpcpy m p name
  let m ← r.1.store r.2 61#8
  let r ← strcpy m (r.2 + 1) value
  pure r.1

/-- src/system/setenv.c:20-47: the loop, and the new entry at the end.  `p` is the answer of `malloc` to
`len+1+strlen(value)` (the caller of the model knows which bytes are usable there). -/
def setenvLoop (m : Mem) (name value len : Nat) (overwrite : Bool) (p : Nat) : List Nat → Res (Mem × List Nat × Int)
  | [] => .ub
  | e :: arr =>
    if e = 0 then
      if p = 0 then .ok (m, 0 :: arr, -1)
      else do
        let m ← setenvText m name value p
        let l ← appendCell p arr
        pure (m, l, 0)
    else do
      let c ← strncmp m e name len
      if c = 0 then
        if overwrite = false then pure (m, e :: arr, 0)
        else if p = 0 then pure (m, 0 :: arr, -1)
        else do
          let m ← setenvText m name value p
          pure (m, p :: arr, 0)
      else do
        let r ← setenvLoop m name value len overwrite p arr
        pure (r.1, e :: r.2.1, r.2.2)

/-- src/system/setenv.c:15-48 `setenv`. -/
def setenv (m : Mem) (name value : Nat) (overwrite : Bool) (p : Nat) (arr : List Nat) : Res (Mem × List Nat × Int) := do
  let len ← strlen m name
  setenvLoop m name value len overwrite p arr

/-- src/system/unsetenv.c:17: `for ( e = envp+1; ( *envp=*e ); e++,envp++ ){}` from the cell found on: the entries
behind move down, with the NULL; the cells behind it keep their contents, and so does the old NULL.  The outer loop
(lines 14-19) goes on at the old NULL and ends. -/
def shiftDown : List Nat → Res (List Nat)
  | [] => .ub
  | [_] => .ub
  | _ :: e :: arr =>
    if e = 0 then .ok (0 :: e :: arr)
    else do
      let l ← shiftDown (e :: arr)
      pure (e :: l)

/-- src/system/unsetenv.c:10-21 `unsetenv`: the new array. -/
def unsetenv (m : Mem) (name : Nat) : List Nat → Res (List Nat)
  | [] => .ub
  | p :: arr =>
    if p = 0 then .ok (p :: arr)
    else do
      let r ← envCmp m p name
      if r.1 = 61#8 then shiftDown (p :: arr)
      else do
        let l ← unsetenv m name arr
        pure (p :: l)

end Minilib

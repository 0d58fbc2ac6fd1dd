import Verif.Model.Userdb
/-
The groups of the process: /repo/src/userdb/{getgroups,initgroups}.c, over the passwd and group functions.

The memory and the globals of both databases are one state, together with what the kernel knows of the process.  The kernel maps
a file at a fixed address; the rest of the page behind the file is zero.
-/

set_option autoImplicit false

namespace Minilib
open Mem

/-- What the kernel knows of the process: the real user, the group, the supplementary groups, and whether it may change them. -/
structure Cred where
  uid : Nat
  gid : Nat
  groups : List Nat
  root : Bool
deriving DecidableEq

/-- The memory, the globals of the user database (`mlgl->passwdfile`, `pwent`, `groupfile`, `groupent`), and the process. -/
structure IdState where
  m : Mem
  pf : Userdb
  pw : Passwd
  gf : Userdb
  gr : Group
  cred : Cred

/-- The part of the passwd functions. -/
def IdState.pwd (s : IdState) : PwState := ⟨s.m, s.pf, s.pw⟩

/-- The part of the group functions. -/
def IdState.grp (s : IdState) : GrState := ⟨s.m, s.gf, s.gr⟩

/-- The state after a passwd function. -/
def IdState.setPwd (s : IdState) (q : PwState) : IdState := { s with m := q.m, pf := q.f, pw := q.pw }

/-- The state after a group function. -/
def IdState.setGrp (s : IdState) (q : GrState) : IdState := { s with m := q.m, gf := q.f, gr := q.gr }

/-- The bytes of the pages of a file of `n` bytes. -/
def pageBytes (n : Nat) : Nat := (n + 4095) / 4096 * 4096

/-- The memory with a file mapped at `a` (src/userdb/userdb_open.c:14-17, private): its text, and zeros up to the end of the page. -/
def mapFile (a : Nat) (text : List Byte) (m : Mem) : Mem := fun x =>
  if a ≤ x ∧ x < a + pageBytes text.length then some ((text[x - a]?).getD 0#8) else m x

/-- The system call setgroups (include/syscall_stubs.h:200): it takes a privileged process, a count that is not negative, at most
65536 groups (NGROUPS_MAX) and no group (gid_t)-1.  The order is kept here; the kernel sorts. -/
def sysSetgroups (c : Cred) (n : Int) (l : List Nat) : Cred × Int :=
  if c.root = true ∧ 0 ≤ n ∧ n ≤ 65536 ∧ ∀ g ∈ l, g < 4294967295 then ({ c with groups := l }, 0) else (c, -1)

/-- The system call setgid (include/syscall_stubs.h:162): a privileged process gets the group; any other may ask for its own. -/
def sysSetgid (c : Cred) (g : Nat) : Cred × Int :=
  if g < 4294967295 ∧ (c.root = true ∨ g = c.gid) then ({ c with gid := g }, 0) else (c, -1)

/-- src/userdb/getgroups.c:8-14 `getgroups`: the answer, and the groups written to the list.  `kp` and `kg` map the files. -/
def getgroups (kp kg : Mem → Mapping) (s : IdState) (max : Nat) : Res (IdState × Int × List Nat) := do
  let r ← getpwuid (kp s.m) s.pwd s.cred.uid
  if r.2 = false then pure (s.setPwd r.1, -1, [])
  else do
    let q ← getusergroups (kg r.1.m) (s.setPwd r.1).grp r.1.pw.name max
    pure ((s.setPwd r.1).setGrp q.1, q.2.1, q.2.2)

/-- src/userdb/initgroups.c:2-19 `initgroups`; MAXGROUPS is 128 (include/config.h:23).  `group` is not used. -/
def initgroups (kp kg : Mem → Mapping) (s : IdState) (user _group : Nat) : Res (IdState × Int) := do
  let r ← getpwnam (kp s.m) s.pwd user
  if r.2 = false then pure (s.setPwd r.1, -1)
  else do
    let q ← getusergroups (kg r.1.m) (s.setPwd r.1).grp user 128
    let s := (s.setPwd r.1).setGrp q.1
    let c := sysSetgroups s.cred q.2.1 q.2.2
    if c.2 < 0 then pure ({ s with cred := c.1 }, -1)
    else
      let d := sysSetgid c.1 s.pw.gid
      if d.2 < 0 then pure ({ s with cred := d.1 }, -1)
      else pure ({ s with cred := d.1 }, 0)

end Minilib

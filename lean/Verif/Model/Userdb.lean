import Verif.Model.Str
import Verif.C.Word
import Verif.C.Int
/-
The user and group database: /repo/src/userdb/{userdb,userdb_open,getpwent,getpwnam,getpwuid,setpwent,endpwent,getgrent,
getgrnam,getgrgid,setgrent,endgrent,getusergroups,getgrouplist}.c.

The globals `mlgl->passwdfile`, `mlgl->pwent`, `mlgl->groupfile`, `mlgl->groupent` are fields of the state; the mapped file is
in byte memory.  Messages to stderr (`ewrites`) are left out.  What the kernel answers to `open`, `fstat` and `mmap` is a
parameter of the functions that may open the file: nothing, or the memory with the new mapping, its address and the size of the
file.  That `mmap` fails after a successful `open` is left out.
-/

set_option autoImplicit false

namespace Minilib
open Mem

/-- include/pwent.h:30-35 `userdb`. -/
structure Userdb where
  file : Nat
  p : Nat
  p2 : Nat
  size : Nat

/-- include/pwent.h:8-16 `struct passwd`. -/
structure Passwd where
  name : Nat
  passwd : Nat
  uid : Nat
  gid : Nat
  gecos : Nat
  dir : Nat
  shell : Nat

/-- The memory and the globals of the passwd functions. -/
structure PwState where
  m : Mem
  f : Userdb
  pw : Passwd

/-- What the kernel answers to the calls of userdb_open: the memory with the mapping, the address and the size. -/
abbrev Mapping := Option (Mem × Nat × Nat)

/-- src/userdb/userdb.c:21-27: the loop of `token_s`; `fin` is `file+size`. -/
def tokenSLoop (fin : Nat) (m : Mem) (p : Nat) : Res (Mem × Nat) :=
  if p < fin then do
    let b ← m.load p
    if b = 0#8 then pure (m, p)
    else if b = 58#8 ∨ b = 10#8 then do
      let m ← m.store p 0#8
      tokenSLoop fin m p
    else tokenSLoop fin m (p + 1)
  else pure (m, p)
partial_fixpoint

/-- src/userdb/userdb.c:19-30 `token_s`: the memory and the new `*p`; the value is the old `*p`. -/
def tokenS (fin : Nat) (m : Mem) (p : Nat) : Res (Mem × Nat) := do
  let r ← tokenSLoop fin m p
  pure (r.1, r.2 + 1)

/-- src/userdb/userdb.c:38: `i += i + (i<<3) + (**p-'0')` on `int`s. -/
def tokenIStep (i : Int) (b : Byte) : Res Int := do
  let t ← (if 0 ≤ i then ckInt (i * 8) else .ub)
  let t ← ckInt (i + t)
  let t ← ckInt (t + (b.toInt - 48))
  ckInt (i + t)

/-- src/userdb/userdb.c:36-40: the loop of `token_i`. -/
def tokenILoop (fin : Nat) (m : Mem) (p : Nat) (i : Int) : Res (Int × Nat) :=
  if p < fin then do
    let b ← m.load p
    if 48 ≤ b.toInt ∧ b.toInt ≤ 57 then do
      let i ← tokenIStep i b
      tokenILoop fin m (p + 1) i
    else pure (i, p)
  else pure (i, p)
partial_fixpoint

/-- src/userdb/userdb.c:33-43 `token_i`: the value, and the new `*p`. -/
def tokenI (fin : Nat) (m : Mem) (p : Nat) : Res (Int × Nat) := do
  let r ← tokenILoop fin m p 0
  pure (r.1, r.2 + 1)

/-- Conversion of an `int` to `uid_t` and `gid_t` (headers/common/bits/alltypes.h:87-88, `unsigned`). -/
def toId (i : Int) : Nat := (i % 4294967296).toNat

/-- src/userdb/userdb_open.c:3-31 `userdb_open`: none for the answer 0. -/
def userdbOpen (kern : Mapping) (m : Mem) (f : Userdb) : Option (Mem × Userdb) :=
  if f.file ≠ 0 then some (m, f)
  else match kern with
    | none => none
    | some (m', a, n) => some (m', { file := a, p := a, p2 := a + n, size := n })

/-- src/userdb/getpwent.c:17-22, the fields behind the name.  The memory, `p` and the entry. -/
def pwFields (fin : Nat) (m : Mem) (name p : Nat) : Res (Mem × Nat × Passwd) := do
  let a ← tokenS fin m p
  let u ← tokenI fin a.1 a.2
  let g ← tokenI fin a.1 u.2
  let c ← tokenS fin a.1 g.2
  let d ← tokenS fin c.1 c.2
  let e ← tokenS fin d.1 d.2
  pure (e.1, e.2,
    { name := name, passwd := p, uid := toId u.1, gid := toId g.1, gecos := g.2, dir := c.2, shell := d.2 })

/-- src/userdb/getpwent.c:9-24, the file being open.  The answer is true for `&mlgl->pwent` and false for NULL. -/
def getpwentOpen (m : Mem) (f : Userdb) (pw : Passwd) : Res (PwState × Bool) :=
  if f.p ≥ f.file + f.size then pure ({ m := m, f := f, pw := pw }, false)
  else do
    let a ← tokenS (f.file + f.size) m f.p
    let b ← a.1.load f.p
    if b = 0#8 then pure ({ m := a.1, f := { f with p := a.2 }, pw := pw }, false)
    else do
      let r ← pwFields (f.file + f.size) a.1 f.p a.2
      pure ({ m := r.1, f := { f with p := r.2.1 }, pw := r.2.2 }, true)

/-- src/userdb/getpwent.c:4-25 `getpwent`. -/
def getpwent (kern : Mapping) (s : PwState) : Res (PwState × Bool) :=
  match userdbOpen kern s.m s.f with
  | none => pure (s, false)
  | some r => getpwentOpen r.1 r.2 s.pw

/-- `for ( int a = 0; a<n; a++ ) token_s( …,&p );` (src/userdb/getpwnam.c:34-35, getpwuid.c:37-38). -/
def skipTokens (fin : Nat) : Nat → Mem → Nat → Res (Mem × Nat)
  | 0, m, p => .ok (m, p)
  | n + 1, m, p => do
    let a ← tokenS fin m p
    skipTokens fin n a.1 a.2

/-- src/userdb/getpwnam.c:19-39: the loop over the lines. -/
def getpwnamLoop (fin : Nat) (name : Nat) (pw : Passwd) (m : Mem) (p : Nat) : Res (Mem × Passwd × Bool) := do
  let a ← tokenS fin m p
  let c ← strcmp a.1 name p
  if c = 0 then do
    let r ← pwFields fin a.1 p a.2
    pure (r.1, r.2.2, true)
  else do
    let r ← skipTokens fin 6 a.1 a.2
    if r.2 < fin then getpwnamLoop fin name pw r.1 r.2 else pure (r.1, pw, false)
partial_fixpoint

/-- src/userdb/getpwnam.c:17-39: the search in the file. -/
def getpwnamScan (m : Mem) (f : Userdb) (pw : Passwd) (name : Nat) : Res (PwState × Bool) := do
  let r ← getpwnamLoop (f.file + f.size) name pw m f.file
  pure ({ m := r.1, f := f, pw := r.2.1 }, r.2.2)

/-- src/userdb/getpwnam.c:7-40 `getpwnam`. -/
def getpwnam (kern : Mapping) (s : PwState) (name : Nat) : Res (PwState × Bool) :=
  if s.f.file = 0 then
    match userdbOpen kern s.m s.f with
    | none => pure (s, false)
    | some r => getpwnamScan r.1 r.2 s.pw name
  else do
    let c ← strcmp s.m s.pw.name name
    if c = 0 then pure (s, true) else getpwnamScan s.m s.f s.pw name

/-- src/userdb/getpwuid.c:27-33: the entry is filled in. -/
def pwuidFields (fin : Nat) (m : Mem) (name passwd : Nat) (u : Int) (p : Nat) : Res (Mem × Passwd) := do
  let g ← tokenI fin m p
  let c ← tokenS fin m g.2
  let d ← tokenS fin c.1 c.2
  let e ← tokenS fin d.1 d.2
  pure (e.1,
    { name := name, passwd := passwd, uid := toId u, gid := toId g.1, gecos := g.2, dir := c.2, shell := d.2 })

/-- src/userdb/getpwuid.c:19-42: the loop over the lines. -/
def getpwuidLoop (fin : Nat) (uid : Nat) (pw : Passwd) (m : Mem) (p : Nat) : Res (Mem × Passwd × Bool) := do
  let a ← tokenS fin m p
  let b ← tokenS fin a.1 a.2
  let u ← tokenI fin b.1 b.2
  if toId u.1 = uid then do
    let r ← pwuidFields fin b.1 p a.2 u.1 u.2
    pure (r.1, r.2, true)
  else do
    let r ← skipTokens fin 4 b.1 u.2
    if r.2 < fin then getpwuidLoop fin uid pw r.1 r.2 else pure (r.1, pw, false)
partial_fixpoint

/-- src/userdb/getpwuid.c:17-42: the search in the file. -/
def getpwuidScan (m : Mem) (f : Userdb) (pw : Passwd) (uid : Nat) : Res (PwState × Bool) := do
  let r ← getpwuidLoop (f.file + f.size) uid pw m f.file
  pure ({ m := r.1, f := f, pw := r.2.1 }, r.2.2)

/-- src/userdb/getpwuid.c:7-43 `getpwuid`. -/
def getpwuid (kern : Mapping) (s : PwState) (uid : Nat) : Res (PwState × Bool) :=
  if s.f.file = 0 then
    match userdbOpen kern s.m s.f with
    | none => pure (s, false)
    | some r => getpwuidScan r.1 r.2 s.pw uid
  else if s.pw.name ≠ 0 ∧ uid = s.pw.uid then pure (s, true)
  else getpwuidScan s.m s.f s.pw uid

/-- src/userdb/setpwent.c:3-5 `setpwent`. -/
def setpwent (s : PwState) : PwState := { s with f := { s.f with p := s.f.file } }

/-- `munmap(a,n)`: the pages of 4096 bytes that `[a,a+n)` touches are gone. -/
def munmap (m : Mem) (a n : Nat) : Mem := fun x => if a ≤ x ∧ x < a + (n + 4095) / 4096 * 4096 then none else m x

/-- src/userdb/endpwent.c:4-7 `endpwent`. -/
def endpwent (s : PwState) : PwState :=
  { s with m := munmap s.m s.f.file s.f.size, f := { s.f with file := 0 } }

/-! ### groups -/

/-- include/pwent.h:19-25 `struct group`; `mem` are the 64 cells of `gr_mem` (MAX_GROUPMEMBERS, include/globaldefs.h). -/
structure Group where
  name : Nat
  passwd : Nat
  gid : Nat
  mem : List Nat

/-- The memory and the globals of the group functions. -/
structure GrState where
  m : Mem
  f : Userdb
  gr : Group

/-- The bytes of a number, least significant first. -/
def natBytes : Nat → Nat → List Byte
  | 0, _ => []
  | k + 1, v => BitVec.ofNat 8 v :: natBytes k (v / 256)

/-- The number of the bytes, least significant first. -/
def bytesNat : List Byte → Nat
  | [] => 0
  | b :: l => b.toNat + 256 * bytesNat l

/-- `*p2` as rvalue, a pointer of 8 bytes. -/
def loadPtr (m : Mem) (a : Nat) : Res Nat := do
  let l ← m.loadBytes a 8
  pure (bytesNat l)

/-- `*p2 = v`. -/
def storePtr (m : Mem) (a v : Nat) : Res Mem := m.storeBytes a (natBytes 8 v)

/-- `gr_mem[i] = v`. -/
def setMem (mem : List Nat) (i v : Nat) : Res (List Nat) :=
  if i < mem.length then .ok (mem.set i v) else .ub

/-- src/userdb/getgrent.c:28-42: the members of a line that is read for the first time; `fin` is the new `groupfile.p`.
The number of members, or none when there are too many. -/
def membersLoop (fin : Nat) (m : Mem) (mem : List Nat) (members mbr count : Nat) :
    Res (Mem × List Nat × Option Nat) :=
  if members < fin then do
    let b ← m.load members
    let m ← (if b = 44#8 then m.store members 0#8 else pure m)
    let b ← m.load members
    if b = 0#8 then do
      let mem ← setMem mem count mbr
      if count + 1 ≥ 64 then pure (m, mem, none)
      else membersLoop fin m mem (members + 1) (members + 1) (count + 1)
    else membersLoop fin m mem (members + 1) mbr count
  else pure (m, mem, some count)
partial_fixpoint

/-- src/userdb/getgrent.c:47-56: the members of a line that was read before; `stop` is the address of `*p2`.
The memory, `p`, the cells and the number of members (none when there are too many). -/
def knownLoop (fin stop : Nat) (m : Mem) (mem : List Nat) (p count : Nat) :
    Res (Mem × Nat × List Nat × Option Nat) := do
  let a ← tokenS fin m p
  let mem ← setMem mem count p
  if count + 1 ≥ 64 then pure (a.1, a.2, mem, none)
  else do
    let e ← loadPtr a.1 stop
    if a.2 < e then knownLoop fin stop a.1 mem a.2 (count + 1) else pure (a.1, a.2, mem, some (count + 1))
partial_fixpoint

/-- src/userdb/getgrent.c:36-39, 43-44 and 60-61: the end of the first reading of a line. -/
def grFirst (f : Userdb) (gr : Group) (p : Nat) (r : Mem × List Nat × Option Nat) : Res (GrState × Bool) :=
  match r.2.2 with
  | none => pure ({ m := r.1, f := { f with p := p }, gr := { gr with mem := r.2.1 } }, false)
  | some count => do
    let m ← storePtr r.1 f.p2 p
    let mem ← setMem r.2.1 count 0
    pure ({ m := m, f := { f with p := p, p2 := f.p2 + 8 }, gr := { gr with mem := mem } }, true)

/-- src/userdb/getgrent.c:51-54, 57 and 60-61: the end of a later reading of a line. -/
def grAgain (f : Userdb) (gr : Group) (r : Mem × Nat × List Nat × Option Nat) : Res (GrState × Bool) :=
  match r.2.2.2 with
  | none => pure ({ m := r.1, f := { f with p := r.2.1 }, gr := { gr with mem := r.2.2.1 } }, false)
  | some count => do
    let mem ← setMem r.2.2.1 count 0
    pure ({ m := r.1, f := { f with p := r.2.1, p2 := f.p2 + 8 }, gr := { gr with mem := mem } }, true)

/-- src/userdb/getgrent.c:22-61: the members; `p` is `groupfile.p`. -/
def grMembers (m : Mem) (f : Userdb) (gr : Group) (p : Nat) : Res (GrState × Bool) := do
  let q ← loadPtr m f.p2
  if q = 0 then do
    let a ← tokenS (f.file + f.size) m p
    let r ← membersLoop a.2 a.1 gr.mem p p 0
    grFirst f gr a.2 r
  else do
    let r ← knownLoop (f.file + f.size) f.p2 m gr.mem p 0
    grAgain f gr r

/-- src/userdb/getgrent.c:9-61, the file being open. -/
def getgrentOpen (m : Mem) (f : Userdb) (gr : Group) : Res (GrState × Bool) :=
  if f.p ≥ f.file + f.size then pure ({ m := m, f := f, gr := gr }, false)
  else do
    let a ← tokenS (f.file + f.size) m f.p
    let b ← a.1.load f.p
    if b = 0#8 then pure ({ m := a.1, f := { f with p := a.2 }, gr := gr }, false)
    else do
      let c ← tokenS (f.file + f.size) a.1 a.2
      let g ← tokenI (f.file + f.size) c.1 c.2
      grMembers c.1 f { gr with name := f.p, passwd := a.2, gid := toId g.1 } g.2

/-- src/userdb/getgrent.c:4-62 `getgrent`. -/
def getgrent (kern : Mapping) (s : GrState) : Res (GrState × Bool) :=
  match userdbOpen kern s.m s.f with
  | none => pure (s, false)
  | some r => getgrentOpen r.1 r.2 s.gr

/-- src/userdb/setgrent.c:3-6 `setgrent`. -/
def setgrent (s : GrState) : GrState :=
  { s with f := { s.f with p := s.f.file, p2 := s.f.file + s.f.size } }

/-- src/userdb/endgrent.c:4-7 `endgrent`. -/
def endgrent (s : GrState) : GrState :=
  { s with m := munmap s.m s.f.file (s.f.size * 2), f := { s.f with file := 0 } }

/-- src/userdb/getgrnam.c:21-25: the loop over the entries. -/
def getgrnamLoop (kern : Mapping) (name : Nat) (s : GrState) : Res (GrState × Bool) := do
  let r ← getgrent kern s
  if r.2 = true then do
    let c ← strcmp r.1.m name r.1.gr.name
    if c = 0 then pure (r.1, true) else getgrnamLoop kern name r.1
  else pure (r.1, false)
partial_fixpoint

/-- src/userdb/getgrnam.c:7-26 `getgrnam`. -/
def getgrnam (kern : Mapping) (s : GrState) (name : Nat) : Res (GrState × Bool) :=
  if s.f.file = 0 then
    match userdbOpen kern s.m s.f with
    | none => pure (s, false)
    | some r => getgrnamLoop kern name (setgrent { m := r.1, f := r.2, gr := s.gr })
  else do
    let c ← strcmp s.m s.gr.name name
    if c = 0 then pure (s, true) else getgrnamLoop kern name (setgrent s)

/-- src/userdb/getgrgid.c:21-26: the loop over the entries. -/
def getgrgidLoop (kern : Mapping) (gid : Nat) (s : GrState) : Res (GrState × Bool) := do
  let r ← getgrent kern s
  if r.2 = true then
    if r.1.gr.gid = gid then pure (r.1, true) else getgrgidLoop kern gid r.1
  else pure (r.1, false)
partial_fixpoint

/-- src/userdb/getgrgid.c:7-27 `getgrgid`. -/
def getgrgid (kern : Mapping) (s : GrState) (gid : Nat) : Res (GrState × Bool) :=
  if s.f.file = 0 then
    match userdbOpen kern s.m s.f with
    | none => pure (s, false)
    | some r => getgrgidLoop kern gid (setgrent { m := r.1, f := r.2, gr := s.gr })
  else if s.gr.gid = gid then pure (s, true)
  else getgrgidLoop kern gid (setgrent s)

/-- src/userdb/getusergroups.c:18-27: is the user one of the members?  Reading behind `gr_mem` is undefined. -/
def isMember (m : Mem) (user : Nat) : List Nat → Res Bool
  | [] => .ub
  | u :: l => if u = 0 then .ok false else do
    let c ← strcmp m u user
    if c = 0 then pure true else isMember m user l

/-- src/userdb/getusergroups.c:14-33: the loop over the groups; `n` cells of the list are left, `acc` are those written, last
first.  The list itself is not in byte memory. -/
def usergroupsLoop (kern : Mapping) (user : Nat) (s : GrState) : Nat → List Nat → Res (GrState × Int × List Nat)
  | 0, acc => .ok (s, -1, acc.reverse)
  | n + 1, acc => do
    let r ← getgrent kern s
    if r.2 = true then do
      let b ← isMember r.1.m user r.1.gr.mem
      if b = true then usergroupsLoop kern user r.1 n (r.1.gr.gid :: acc)
      else usergroupsLoop kern user r.1 (n + 1) acc
    else pure (r.1, (acc.length : Int), acc.reverse)
partial_fixpoint

/-- src/userdb/getusergroups.c:8-34 `getusergroups`: the answer, and the groups written to the list. -/
def getusergroups (kern : Mapping) (s : GrState) (user : Nat) (max : Nat) : Res (GrState × Int × List Nat) :=
  usergroupsLoop kern user (setgrent s) max []

/-- src/userdb/getgrouplist.c:5-19 `getgrouplist`: the answer and the cells written, those of getusergroups first.  A cell outside of the `max` cells
of the list is undefined. -/
def getgrouplist (kern : Mapping) (s : GrState) (user group : Nat) (max : Nat) : Res (GrState × Int × List Nat) := do
  let r ← getusergroups kern s user max
  if 0 ≤ r.2.1 ∧ group ∈ r.2.2 then pure r
  else if r.2.1 ≥ (max : Int) - 1 then pure (r.1, -1, r.2.2)
  else if 0 ≤ r.2.1 then pure (r.1, r.2.1 + 1, r.2.2 ++ [group])
  else .ub

end Minilib

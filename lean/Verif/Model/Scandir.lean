import Verif.Model.Brk
import Verif.Model.MemFn
import Verif.Model.Sort
import Verif.Model.Dir
import Verif.Model.Userdb
/-
Model of /repo/src/directories/{scandir,alphasort}.c, with `mini_errno` and `mini_malloc_brk` (scandir depends on both),
`_BUFSIZE` 4096, and the byte-wise `memcpy`.

A record of a directory is a list of bytes: 8 bytes inode, 8 bytes `d_off`, 2 bytes `d_reclen`, then the name
(include/dirent.h:69-76).  What the kernel delivers is arbitrary: `open` fails or not, every call of `getdents` delivers a
batch of records, and the calls end with an error or the end of the directory.  The callbacks see the bytes of a record.
-/

set_option autoImplicit false

namespace Minilib
open Mem

/-- The kernel's side: the errno of a failing `open`, the batches `getdents` delivers, and the errno of the last call (0:
end of the directory). -/
structure ScanK where
  openErr : Option Nat
  batches : List (List (List Byte))
  fin : Nat

/-- `_BUFSIZE` (src/directories/scandir.c:33-37, the default). -/
def scanBufsize : Nat := 4096

/-- The variables of `scandir` (scandir.c:56-60; `bufpos` equals `pos` between the batches). -/
structure ScanVars where
  pos : Nat
  cp : Nat
  oldcp : Nat
  oldpos : Nat
  cnt : Nat

/-- `de->d_reclen`. -/
def reclen (m : Mem) (de : Nat) : Res Nat := do
  let l ← m.loadBytes (de + 16) 2
  pure (leNat l)

/-- src/directories/scandir.c:63-78: the records of one batch, which ends at offset `lim`. -/
def scanRecs (sel : Option (List Byte → Bool)) (buf lim : Nat) (m : Mem) (t : ScanVars) : Res (Mem × ScanVars) :=
  if t.pos < lim then do
    let n ← reclen m (buf + t.pos)
    let r ← m.loadBytes (buf + t.pos) n
    let _ ← ckInt ((t.pos + n : Nat) : Int)
    let keep := sel.all (fun f => f r)
    let cp := if keep then t.cp + n else t.cp
    let cnt := if keep then t.cnt + 1 else t.cnt
    let m ← (if t.oldcp < t.oldpos then do
        let c ← memcpy m (buf + t.oldcp) (buf + t.oldpos) n
        pure c.1
      else pure m)
    scanRecs sel buf lim m ⟨t.pos + n, cp, cp, t.pos + n, cnt⟩
  else pure (m, t)
partial_fixpoint

/-- src/directories/scandir.c:61-88: read all batches into the buffer, which grows by `_BUFSIZE` for each; the result is the
state, the buffer (0: no memory), the variables, and the errno of the last call of `getdents` (0: no error).  A buffer that is
not mapped is undefined here; the kernel would return EFAULT. -/
def scanBatches (A : Arena) (K : BrkK) (sel : Option (List Byte → Bool)) (fin : Nat) (s : BrkSt) (buf : Nat) (t : ScanVars) :
    List (List (List Byte)) → Res (BrkSt × Nat × ScanVars × Nat)
  | [] => pure (s, buf, t, fin)
  | b :: bs =>
    if b.flatten = [] then pure (s, buf, t, 0)
    else do
      let m ← s.heap.mem.storeBytes (buf + t.pos) b.flatten
      let q ← scanRecs sel buf (b.flatten.length + t.pos) m t
      let size ← ckInt ((q.2.pos + scanBufsize : Nat) : Int)
      let r ← reallocB A K { s with heap := ⟨q.1, s.heap.mbufsize⟩ } buf size
      if r.2 = 0 then pure (r.1, 0, q.2, 0)
      else scanBatches A K sel fin r.1 r.2 q.2 bs

/-- src/directories/scandir.c:107-117: the list of pointers to the records, at `list`. -/
def scanList (m : Mem) (de list : Nat) : Nat → Res Mem
  | 0 => pure m
  | k + 1 => do
    let m ← storePtr m list de
    let n ← reclen m de
    scanList m (de + n) (list + 8) k

/-- What a callback sees through a pointer to a record. -/
def recAt (m : Mem) (a : Nat) : List Byte :=
  match reclen m a with
  | .ok n => match m.loadBytes a n with
    | .ok r => r
    | _ => []
  | _ => []

/-- The outcome of `scandir`: state, errno (if it was set), the value returned, and `*listing` (if it was set). -/
structure ScanRes where
  st : BrkSt
  errno : Option Int
  ret : Int
  listing : Option Nat

/-- src/directories/scandir.c:97-127: enlarge the buffer if the list does not fit, build the list, sort it.  The result of
`realloc` is not used.  The comparison sees the records through the pointers in the list; sorting writes only the list. -/
def scanFinish (A : Arena) (K : BrkK) (cmp : Option (List Byte → List Byte → Int)) (s : BrkSt) (buf : Nat) (t : ScanVars) :
    Res ScanRes := do
  let s ← (if t.cnt * 8 > scanBufsize + (t.pos - t.cp) then do
      let r ← reallocB A K s buf (toInt32 ((t.cp + t.cnt * 8 : Nat) : Int))
      pure r.1
    else pure s)
  let m ← scanList s.heap.mem buf (buf + t.cp) t.cnt
  let m' ← (match cmp with
    | none => pure m
    | some f => qsort (fun x y => f (recAt m (bytesNat x)) (recAt m (bytesNat y))) m (buf + t.cp) t.cnt 8)
  pure ⟨{ s with heap := ⟨m', s.heap.mbufsize⟩ }, none, t.cnt, some (buf + t.cp)⟩

/-- src/directories/scandir.c:30-128 `scandir`.  With `mini_errno` the system calls return -1 and set errno
(include/syscall.h:196-206); `seterrno(-1)` then sets errno to 1 (include/seterrno.h:4).  ENOMEM is 12. -/
def scandir (A : Arena) (K : BrkK) (D : ScanK) (sel : Option (List Byte → Bool))
    (cmp : Option (List Byte → List Byte → Int)) (s : BrkSt) : Res ScanRes :=
  match D.openErr with
  | some _ => pure ⟨s, some 1, -1, none⟩
  | none => do
    let b ← mallocBrk K s scanBufsize
    if b.2 = 0 then pure ⟨b.1, some 12, -12, none⟩
    else
      let r ← scanBatches A K sel D.fin b.1 b.2 ⟨0, 0, 0, 0, 0⟩ D.batches
      if r.2.1 = 0 then pure ⟨r.1, some 12, -12, none⟩
      else if r.2.2.2 ≠ 0 then pure ⟨r.1, some 1, -1, none⟩
      else scanFinish A K cmp r.1 r.2.1 r.2.2.1

/-- src/directories/alphasort.c:7-9 `alphasort`: the names are 18 bytes behind the start of the records the pointers at
`de1` and `de2` point to. -/
def alphasort (m : Mem) (de1 de2 : Nat) : Res Int := do
  let a ← loadPtr m de1
  let b ← loadPtr m de2
  strcmp m (a + 18) (b + 18)

end Minilib

import Verif.C.Int
/-
Models of /repo/include/bsd_timespec.h and /repo/src/process/sleep.c.

`time_t` and `long` have 64 bits; an overflow is undefined.  The macros work on objects named by pointers, which may be the same: the objects are
a function from addresses.
-/

set_option autoImplicit false

namespace Minilib

/-- `struct timespec`. -/
structure Timespec where
  sec : Int
  nsec : Int
  deriving DecidableEq

/-- The result of an operation on `long`. -/
def ckTime (x : Int) : Res Int := if -9223372036854775808 ≤ x ∧ x ≤ 9223372036854775807 then .ok x else .ub

/-- The objects at their addresses. -/
abbrev TsMem := Nat → Timespec

/-- `(vsp)->tv_sec = x`. -/
def TsMem.setSec (m : TsMem) (v : Nat) (x : Int) : TsMem := fun a => if a = v then { m v with sec := x } else m a

/-- `(vsp)->tv_nsec = x`. -/
def TsMem.setNsec (m : TsMem) (v : Nat) (x : Int) : TsMem := fun a => if a = v then { m v with nsec := x } else m a

/-- include/bsd_timespec.h:9 `timespecclear`. -/
def timespecclear (m : TsMem) (t : Nat) : TsMem := (m.setNsec t 0).setSec t 0

/-- include/bsd_timespec.h:13 `timespecisset`. -/
def timespecisset (m : TsMem) (t : Nat) : Bool := (m t).sec ≠ 0 || (m t).nsec ≠ 0

/-- include/bsd_timespec.h:17-20 `timespeccmp`; `cmp` is one of the six operators of comparison. -/
def timespeccmp (m : TsMem) (t u : Nat) (cmp : Int → Int → Bool) : Bool :=
  if (m t).sec = (m u).sec then cmp (m t).nsec (m u).nsec else cmp (m t).sec (m u).sec

/-- include/bsd_timespec.h:24-32 `timespecadd`. -/
def timespecadd (m : TsMem) (t u v : Nat) : Res TsMem := do
  let s ← ckTime ((m t).sec + (m u).sec)
  let m := m.setSec v s
  let n ← ckTime ((m t).nsec + (m u).nsec)
  let m := m.setNsec v n
  if 1000000000 ≤ (m v).nsec then do
    let s ← ckTime ((m v).sec + 1)
    let m := m.setSec v s
    let n ← ckTime ((m v).nsec - 1000000000)
    pure (m.setNsec v n)
  else pure m

/-- include/bsd_timespec.h:36-44 `timespecsub`. -/
def timespecsub (m : TsMem) (t u v : Nat) : Res TsMem := do
  let s ← ckTime ((m t).sec - (m u).sec)
  let m := m.setSec v s
  let n ← ckTime ((m t).nsec - (m u).nsec)
  let m := m.setNsec v n
  if (m v).nsec < 0 then do
    let s ← ckTime ((m v).sec - 1)
    let m := m.setSec v s
    let n ← ckTime ((m v).nsec + 1000000000)
    pure (m.setNsec v n)
  else pure m

/-- What nanosleep does: it sleeps for the time asked for, or a signal comes and it stores the time that is left and answers `code`
(-1 or -EINTR, include/syscall.h:198-225). -/
inductive Slept where
  | whole
  | interrupted (left : Timespec) (code : Int)

/-- The requested time, the answer, and the object afterwards. -/
def nanosleep (k : Timespec → Slept) (t : Timespec) : Int × Timespec :=
  match k t with
  | .whole => (0, t)
  | .interrupted l c => (c, l)

/-- src/process/sleep.c:10-16 `sleep`; `unsigned int` results are modulo 2^32. -/
def sleep (k : Timespec → Slept) (seconds : Nat) : Nat :=
  let r := nanosleep k ⟨seconds, 0⟩
  let res := (r.1 % 4294967296).toNat
  if res ≠ 0 then (((r.2.sec % 4294967296) + (if 500000000 ≤ r.2.nsec then 1 else 0)) % 4294967296).toNat else res

/-- src/process/sleep.c:41-43: the time asked for. -/
def usleepTime (useconds : Nat) : Timespec :=
  ⟨if 1000000 ≤ useconds then (useconds / 1000000 : Nat) else 0, (useconds * 1000 % 1000000000 : Nat)⟩

/-- src/process/sleep.c:31-47 `usleep`. -/
def usleep (k : Timespec → Slept) (useconds : Nat) : Nat := ((nanosleep k (usleepTime useconds)).1 % 4294967296).toNat

end Minilib

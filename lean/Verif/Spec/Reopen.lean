import Verif.Model.Reopen
import Verif.Props.Streams
/-
Specification of streams bound to files: each stream has a file, and a descriptor of its own.
-/

set_option autoImplicit false

namespace Spec
open Minilib

/-- What a program has open: streams, by their slots, and descriptors it opened itself. -/
structure FState where
  streams : List (Nat × FileEnt)
  raws : List (Nat × FileEnt)

inductive FOp where
  | fopen (name mode : List Byte)
  | freopen (name mode : List Byte) (i : Nat)
  | fdopen (fd : Nat) (mode : List Byte)
  | fclose (i : Nat)
  | open (name : List Byte) (flags : BitVec 32)
  | close (fd : Nat)
  /-- The stream was used: flags set or cleared, a character (below 128) pushed back. -/
  | use (i : Nat) (cell : BitVec 32)

inductive FAns where
  | stream (i : Option Nat)
  | int (r : Int)

/-- The flags `fopen` hands to `open`: the standard ones, except for "a" (see C70). -/
def flagsOf (mode : List Byte) : Option (BitVec 32) :=
  if mode.head? = some 97#8 then some (O_RDWR ||| O_APPEND) else modeFlags mode

/-- A mode is a string of up to six characters. -/
def ModeOk (mode : List Byte) : Prop := 0#8 ∉ mode ∧ mode.length ≤ 6

instance (mode : List Byte) : Decidable (ModeOk mode) := by unfold ModeOk; infer_instance

/-- What an orderly program does: it uses what is open; streams are opened while one of the 16 slots is free, and closed while the
last slot was not handed out, and when they are the highest open one or the next slot is open, too (see C43). -/
def FPre (s : FilesSt) (a : FState) : FOp → Prop
  | .fopen _ mode => ModeOk mode ∧ a.streams.length < 16
  | .freopen _ mode i => ModeOk mode ∧ i ∈ a.streams.map (·.1)
  | .fdopen fd mode => ModeOk mode ∧ a.streams.length < 16 ∧ fd ∈ a.raws.map (·.1)
  | .fclose i => i ∈ a.streams.map (·.1) ∧ 3 ≤ i ∧ ((∀ j ∈ a.streams.map (·.1), j ≤ i) ∨ i + 1 ∈ a.streams.map (·.1)) ∧ s.table.pstream < 16
  | .open _ _ => True
  | .close fd => fd ∈ a.raws.map (·.1)
  | .use i cell => i ∈ a.streams.map (·.1) ∧ 3 ≤ i ∧ 0 ≤ cell.toInt ∧ ∃ c, s.table.cells[i]? = some c ∧ fileno c = fileno cell

/-- Why `open` fails. -/
def OpenFails (K : FilesK) (s : FilesSt) (name : List Byte) (flags : BitVec 32) : Prop :=
  K s.opens name flags ≠ none ∨ ∀ i, i < 1024 → s.fds.getD i none ≠ none

/-- The answers: a stream is delivered exactly if the mode is one and the file can be opened.  After `freopen` there is a
descriptor for sure, as one was closed. -/
def FOk (K : FilesK) (s : FilesSt) (a : FState) : FOp → FAns → Prop
  | .fopen name mode, ans =>
    (∃ i fl, ans = .stream (some i) ∧ i ∉ a.streams.map (·.1) ∧ flagsOf mode = some fl ∧ ¬ OpenFails K s name fl) ∨
    (ans = .stream none ∧ ∀ fl, flagsOf mode = some fl → OpenFails K s name fl)
  | .freopen name mode i, ans =>
    (∃ fl, ans = .stream (some i) ∧ flagsOf mode = some fl ∧ K s.opens name fl = none) ∨
    (ans = .stream none ∧ ∀ fl, flagsOf mode = some fl → K s.opens name fl ≠ none)
  | .fdopen _ mode, ans =>
    (∃ i, ans = .stream (some i) ∧ i ∉ a.streams.map (·.1) ∧ flagsOf mode ≠ none) ∨ (ans = .stream none ∧ flagsOf mode = none)
  | .fclose _, ans => ans = .int 0
  | .open name flags, ans =>
    (∃ fd : Nat, ans = .int fd ∧ ¬ OpenFails K s name flags) ∨ (ans = .int (-1) ∧ OpenFails K s name flags)
  | .close _, ans => ans = .int 0
  | .use _ _, ans => ans = .int 0

/-- What is open after a call. -/
def fNext (a : FState) : FOp → FAns → FState
  | .fopen name mode, .stream (some i) => { a with streams := (i, ⟨name, (flagsOf mode).getD 0⟩) :: a.streams }
  | .freopen name mode i, .stream (some _) =>
    { a with streams := a.streams.map (fun x => if x.1 = i then (i, ⟨name, (flagsOf mode).getD 0⟩) else x) }
  | .freopen _ mode i, .stream none => if flagsOf mode = none then a else { a with streams := a.streams.filter (fun x => x.1 ≠ i) }
  | .fdopen fd _, .stream (some i) =>
    { streams := (a.raws.filter (fun x => x.1 = fd)).map (fun x => (i, x.2)) ++ a.streams, raws := a.raws.filter (fun x => x.1 ≠ fd) }
  | .fclose i, _ => { a with streams := a.streams.filter (fun x => x.1 ≠ i) }
  | .open name flags, .int fd => if fd < 0 then a else { a with raws := (fd.toNat, ⟨name, flags⟩) :: a.raws }
  | .close fd, _ => { a with raws := a.raws.filter (fun x => x.1 ≠ fd) }
  | _, _ => a

/-- A failed `freopen` of a standard stream ends the histories considered. -/
def FGoesOn : FOp → FAns → Prop
  | .freopen _ mode i, .stream none => 3 ≤ i ∨ flagsOf mode = none
  | _, _ => True

end Spec

namespace Minilib
open Spec

/-- A call of the program; the mode is a string in memory. -/
def fStep (K : FilesK) (s : FilesSt) : FOp → Res (FilesSt × FAns)
  | .fopen name mode => do
    let r ← fopenF K s (Mem.object 4096 (mode ++ [0#8])) name 4096
    pure (r.1, .stream r.2)
  | .freopen name mode i => do
    let r ← freopen K s (Mem.object 4096 (mode ++ [0#8])) (some name) 4096 i
    pure (r.1, .stream r.2)
  | .fdopen fd mode => do
    let r ← fdopen K s (Mem.object 4096 (mode ++ [0#8])) (BitVec.ofNat 32 fd) 4096
    pure (r.1, .stream r.2)
  | .fclose i => do
    let r ← fcloseF s i
    pure (r.1, .int r.2)
  | .open name flags => .ok ((sysOpen K s name flags).1, .int (sysOpen K s name flags).2.toInt)
  | .close fd => .ok ((sysClose s (BitVec.ofNat 32 fd)).1, .int (sysClose s (BitVec.ofNat 32 fd)).2)
  | .use i cell => .ok ({ s with table := ⟨s.table.cells.set i cell, s.table.pstream⟩ }, .int 0)

/-- The histories of a program, with what it has open; at the start the standard streams, and what it inherits. -/
inductive FReach (K : FilesK) (fds₀ : List (Option FileEnt)) : FilesSt → FState → Prop
  | init {e0 e1 e2 : FileEnt} (errno : Int) : fds₀.getD 0 none = some e0 → fds₀.getD 1 none = some e1 → fds₀.getD 2 none = some e2 →
      FReach K fds₀ ⟨Table.init, fds₀, errno, 0⟩ ⟨[(2, e2), (1, e1), (0, e0)], []⟩
  | step {s a s' ans} (op : FOp) : FReach K fds₀ s a → FPre s a op → fStep K s op = .ok (s', ans) → FGoesOn op ans →
      FReach K fds₀ s' (fNext a op ans)

end Minilib

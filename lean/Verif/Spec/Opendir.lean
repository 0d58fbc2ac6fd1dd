import Verif.Model.Opendir
import Verif.Spec.Dir
import Verif.Spec.Heap
/-
Specification of directory streams of a program: each is a directory and a position in it, of its own.
-/

set_option autoImplicit false

namespace Spec
open Minilib

/-- A stream: the name of the directory, the number of records read, and the record read last, with its place. -/
structure DStream where
  name : List Byte
  pos : Nat
  last : Option (Nat × List Byte)

/-- What a program holds: streams, by their pointers, blocks, and what it has stored in them. -/
structure DState where
  streams : List (Nat × DStream)
  blocks : List (Nat × Nat)
  shadow : Mem

inductive DOp where
  | opendir (name : List Byte)
  | closedir (p : Nat)
  | readdir (p : Nat)
  | rewinddir (p : Nat)
  | malloc (n : Nat)
  | free (q : Nat)
  | store (q i : Nat) (b : Byte)

inductive DAns where
  | ptr (p : Nat)
  | entry (r : Option (Nat × List Byte))
  | int (i : Int)
  | done

/-- What a correct program does: it uses streams that are open, and blocks it holds. -/
def DPre (a : DState) : DOp → Prop
  | .opendir _ => True
  | .closedir p => ∃ st, (p, st) ∈ a.streams
  | .readdir p => ∃ st, (p, st) ∈ a.streams
  | .rewinddir p => ∃ st, (p, st) ∈ a.streams
  | .malloc n => 1 ≤ n ∧ n ≤ 2147483640
  | .free q => ∃ n, (q, n) ∈ a.blocks
  | .store q i _ => ∃ n, (q, n) ∈ a.blocks ∧ i < n

/-- The answers: `readdir` gives the record at the position of this stream, or NULL behind the last one, or when the kernel fails. -/
def DOk (K : DirsK) (fails : Prop) (a : DState) : DOp → DAns → Prop
  | .opendir name, ans => ∃ p, ans = .ptr p ∧ (p ≠ 0 → K.dir name ≠ none)
  | .closedir _, ans => ans = .int 0
  | .readdir p, ans => ∀ st, (p, st) ∈ a.streams → ∃ es ck, K.dir st.name = some (es, ck) ∧
      ((∃ q r, ans = .entry (some (q, r)) ∧ es[st.pos]? = some r ∧ p < q ∧ q + r.length ≤ p + 2072) ∨
        (ans = .entry none ∧ (es[st.pos]? = none ∨ fails)))
  | .rewinddir _, ans => ans = .done
  | .malloc _, ans => ∃ p, ans = .ptr p
  | .free _, ans => ans = .done
  | .store _ _ _, ans => ans = .done

/-- One stream changed. -/
def DState.change (a : DState) (p : Nat) (f : DStream → DStream) : DState :=
  { a with streams := a.streams.map (fun x => if x.1 = p then (p, f x.2) else x) }

/-- What a program holds after a call. -/
def dNext (a : DState) : DOp → DAns → DState
  | .opendir name, .ptr p => if p = 0 then a else { a with streams := (p, ⟨name, 0, none⟩) :: a.streams }
  | .closedir p, _ => { a with streams := a.streams.filter (fun x => x.1 ≠ p) }
  | .readdir p, .entry (some r) => a.change p (fun st => { st with pos := st.pos + 1, last := some r })
  | .readdir p, _ => a.change p (fun st => { st with last := none })
  | .rewinddir p, _ => a.change p (fun st => { st with pos := 0 })
  | .malloc n, .ptr p => if p = 0 then a else { a with blocks := (p, n) :: a.blocks, shadow := forget a.shadow p n }
  | .free q, _ => { a with blocks := a.blocks.filter (fun x => x.1 ≠ q) }
  | .store q i b, _ => { a with shadow := a.shadow.upd (q + i) b }
  | _, _ => a

/-- The kernel's directories: well formed, with records that fit into the buffer. -/
def DirsOk (K : DirsK) : Prop :=
  ∀ name e, K.dir name = some e → GoodDir (K.kern e) ∧ ∀ r ∈ e.1, r.length ≤ 2048

end Spec

namespace Minilib
open Spec

/-- A call of the program. -/
def dStep (A : Arena) (K : DirsK) (s : DirsSt) : DOp → Res (DirsSt × DAns)
  | .opendir name => do
    let r ← opendir A K s name
    pure (r.1, .ptr r.2)
  | .closedir p => do
    let r ← closedir A s p
    pure (r.1, .int r.2)
  | .readdir p => do
    let r ← readdirMem K s p
    pure (r.1, .entry (if r.2 = 0 then none else some (r.2, recAt r.1.heap.mem r.2)))
  | .rewinddir p => do
    let s ← rewinddirMem K s p
    pure (s, .done)
  | .malloc n => do
    let r ← malloc A s.heap n
    pure ({ s with heap := r.1 }, .ptr r.2)
  | .free q => do
    let h ← free A s.heap q
    pure ({ s with heap := h }, .done)
  | .store q i b => do
    let m ← s.heap.mem.store (q + i) b
    pure (s.setMem m, .done)

/-- The histories of a program, with what it holds. -/
inductive DReach (A : Arena) (m₀ : Mem) (K : DirsK) (fds₀ : List (Option FdEnt)) : DirsSt → DState → Prop
  | init (errno : Int) : DReach A m₀ K fds₀ ⟨Heap.init A m₀, fds₀, errno, 0, 0⟩ ⟨[], [], fun _ => none⟩
  | step {s a s' ans} (op : DOp) : DReach A m₀ K fds₀ s a → DPre a op → dStep A K s op = .ok (s', ans) →
      DReach A m₀ K fds₀ s' (dNext a op ans)

end Minilib

import Verif.Model.Malloc
/-
Histories of a program using the allocator, seen from outside: the blocks it holds and what it has
stored in them.
-/

set_option autoImplicit false

namespace Minilib
open Mem

/-- What startup.c guarantees for the arena: aligned and mapped; `mini_buf` is a multiple of 4 below
2^30 (the header stores a word count in 28 bits).  Nothing is asked about what the arena contains: with
`globals_on_stack` it is not even zero. -/
structure Arena.Ok (A : Arena) (m : Mem) : Prop where
  base4 : A.base % 4 = 0
  base0 : 0 < A.base
  size4 : A.size % 4 = 0
  sizeGe : 4 ≤ A.size
  sizeLt : A.size < 2 ^ 30
  mapped : m.Mapped A.base A.size

/-- A program with its heap: `live` are the blocks (pointer, requested size) it holds, `shadow` what
it has stored in them since they were allocated. -/
structure Client where
  heap : Heap
  live : List (Nat × Nat)
  shadow : Mem

/-- Memory `s` with the range `[p, p+n)` forgotten. -/
def forget (s : Mem) (p n : Nat) : Mem := fun x => if p ≤ x ∧ x < p + n then none else s x

/-- Everything a correct program can do, in any order: request `n ≥ 1` bytes, free a block it holds,
store into a block it holds, change memory outside the arena, or call library code that uses the
unallocated bottom of the arena as scratch buffer. -/
inductive Reach (A : Arena) (m₀ : Mem) : Client → Prop
  | init : Reach A m₀ ⟨Heap.init A m₀, [], fun _ => none⟩
  | malloc_ok {c h p} (n : Nat) : Reach A m₀ c → 1 ≤ n → n ≤ 2147483640 →
      malloc A c.heap n = .ok (h, p) → p ≠ 0 →
      Reach A m₀ ⟨h, (p, n) :: c.live, forget c.shadow p n⟩
  | malloc_fail {c h} (n : Nat) : Reach A m₀ c → 1 ≤ n → n ≤ 2147483640 →
      malloc A c.heap n = .ok (h, 0) → Reach A m₀ ⟨h, c.live, c.shadow⟩
  | free {c h p n} : Reach A m₀ c → (p, n) ∈ c.live → free A c.heap p = .ok h →
      Reach A m₀ ⟨h, c.live.filter (fun b => b.1 ≠ p), c.shadow⟩
  | store {c p n} (i : Nat) (b : Byte) : Reach A m₀ c → (p, n) ∈ c.live → i < n →
      Reach A m₀ ⟨⟨c.heap.mem.upd (p + i) b, c.heap.mbufsize⟩, c.live, c.shadow.upd (p + i) b⟩
  | outside {c} (x : Nat) (b : Byte) : Reach A m₀ c → x < A.base ∨ A.base + A.size ≤ x →
      Reach A m₀ ⟨⟨c.heap.mem.upd x b, c.heap.mbufsize⟩, c.live, c.shadow⟩
  | scratch {c} (i : Nat) (b : Byte) : Reach A m₀ c → (i : Int) < c.heap.mbufsize →
      Reach A m₀ ⟨⟨c.heap.mem.upd (A.base + i) b, c.heap.mbufsize⟩, c.live, c.shadow⟩

/-- Bytes an allocation of `n` bytes takes from the arena: rounded up to words, plus one word. -/
def need (n : Nat) : Nat := 4 * ((n + 3) / 4 + 1)

/-- A sequence of requests; the pointers returned. -/
def mallocs (A : Arena) (h : Heap) : List Nat → Res (Heap × List Nat)
  | [] => .ok (h, [])
  | n :: ns => do
    let (h, p) ← malloc A h n
    let (h, ps) ← mallocs A h ns
    pure (h, p :: ps)

end Minilib

import Verif.Model.Brk
import Verif.Spec.Heap
/-
Histories of a program using the allocator on the data segment, seen from outside: the blocks it holds, what it has
stored in them, and the breaks it has saved with `getbrk` to return to.
-/

set_option autoImplicit false

namespace Minilib
open Mem

/-- The layout of a Linux process: the data segment starts at a page and ends below 2^47. -/
structure BrkK.Ok (K : BrkK) : Prop where
  page : K.start % 4096 = 0
  pos : 0 < K.start
  top : K.start < 2 ^ 47
  lim : ∀ k, K.limit k < 2 ^ 47

/-- The kernel would move the break to `a` (at the next call or the one behind it). -/
def BrkK.Grants (K : BrkK) (s : BrkSt) (a : Nat) : Prop := ∀ k, s.calls ≤ k → k ≤ s.calls + 1 → a ≤ K.limit k

/-- A program with its data segment: `live` are the blocks (pointer, requested size) it holds, `shadow` what it has
stored in them, `saved` the values of `getbrk` it may still return to. -/
structure BClient where
  st : BrkSt
  live : List (Nat × Nat)
  shadow : Mem
  saved : List Nat

/-- What a program can do, in any order, as long as the kernel grants the memory: request 1 to 268435448 bytes, free a
block it holds, resize the block that ends at the break, ask for the break, return to a break asked for before (if the
break has not been below it meanwhile, and no block that ended there has been resized), free everything with `free_brk`,
store into a block it holds, and change the memory below the data segment and the arena in any way. -/
inductive BReach (K : BrkK) (A : Arena) (h₀ : Heap) : BClient → Prop
  | init : BReach K A h₀ ⟨BrkSt.init K h₀, [], fun _ => none, []⟩
  | alloc {c s p} (n : Nat) : BReach K A h₀ c → 1 ≤ n → n ≤ 268435448 → K.Grants c.st (c.st.kbrk + need n) →
      mallocBrk K c.st n = .ok (s, p) →
      BReach K A h₀ ⟨s, (p, n) :: c.live, forget c.shadow p n, c.saved⟩
  | free {c s p n} : BReach K A h₀ c → (p, n) ∈ c.live → freeB A K c.st p = .ok s →
      BReach K A h₀ ⟨s, c.live.filter (fun b => b.1 ≠ p), c.shadow, c.saved.filter (fun b => b ≤ s.kbrk)⟩
  | resize {c s p q n} (n' : Nat) : BReach K A h₀ c → (p, n) ∈ c.live → p + (need n - 4) = c.st.kbrk → 1 ≤ n' →
      n' ≤ 268435448 → K.Grants c.st (p + (need n' - 4)) → reallocB A K c.st p n' = .ok (s, q) →
      BReach K A h₀ ⟨s, (q, n') :: c.live.filter (fun b => b.1 ≠ p), forget c.shadow (p + n) (n' - n),
        c.saved.filter (fun b => b < p)⟩
  | save {c s b} : BReach K A h₀ c → getbrk K c.st = (s, b) → BReach K A h₀ ⟨s, c.live, c.shadow, b.toNat :: c.saved⟩
  | restore {c s b r} : BReach K A h₀ c → b ∈ c.saved → brk K c.st b = (s, r) →
      BReach K A h₀ ⟨s, c.live.filter (fun x => x.1 < b), c.shadow, c.saved.filter (fun x => x ≤ b)⟩
  | freeAll {c s r} : BReach K A h₀ c → freeBrk K c.st = (s, r) →
      BReach K A h₀ ⟨s, [], c.shadow, c.saved.filter (fun b => b ≤ s.kbrk)⟩
  | store {c p n} (i : Nat) (b : Byte) : BReach K A h₀ c → (p, n) ∈ c.live → i < n →
      BReach K A h₀ ⟨{ c.st with heap := ⟨c.st.heap.mem.upd (p + i) b, c.st.heap.mbufsize⟩ }, c.live,
        c.shadow.upd (p + i) b, c.saved⟩
  | other {c} (h : Heap) : BReach K A h₀ c → (∀ x, K.start ≤ x → h.mem x = c.st.heap.mem x) →
      BReach K A h₀ ⟨{ c.st with heap := h }, c.live, c.shadow, c.saved⟩

end Minilib

import Verif.Model.Kmalloc
import Verif.Spec.Brk
/-
Histories of a program using kmalloc.
-/

set_option autoImplicit false

namespace Spec

/-- Bytes of a block of class `k`, with 8 for its header. -/
def kSize (k : Nat) : Nat := if k ≤ 8 then 2 ^ (k + 3) else 2 ^ (k + 3) + 4096

/-- `k` is the smallest class with room for `n` bytes. -/
def KClass (n k : Nat) : Prop := n + 8 ≤ kSize k ∧ ∀ j, j < k → kSize j < n + 8

/-- The largest request that can be met: the bytes of class 27. -/
def kMax : Nat := 2 ^ 30 + 4088

end Spec

namespace Minilib
open Mem

/-- The kernel has room for a further block, at any time. -/
def KRoom (K : BrkK) (s : BrkSt) : Prop := ∀ k, s.kbrk + 0x40003000 ≤ K.limit k

/-- A program with kmalloc: the blocks (pointer, requested size) it holds, what it has stored in them, and the pointers it has freed and not got
back since. -/
structure KClient where
  st : KSt
  live : List (Nat × Nat)
  shadow : Mem
  freed : List Nat

/-- What a program can do, in any order, as long as there is room: request 0 bytes or more, free a block it holds, free a pointer again, resize a
block it holds, and store into a block it holds. -/
inductive KReach (K : BrkK) (h₀ : Heap) : KClient → Prop
  | init : KReach K h₀ ⟨KSt.init K h₀, [], fun _ => none, []⟩
  | alloc {c s p} (n : Nat) : KReach K h₀ c → KRoom K c.st.b → n ≤ Spec.kMax → kmalloc K c.st n = .ok (s, p) →
      KReach K h₀ ⟨s, (p, n) :: c.live, forget c.shadow p n, c.freed.filter (fun q => q ≠ p)⟩
  | refused {c s p} (n : Nat) : KReach K h₀ c → KRoom K c.st.b → Spec.kMax < n → n < 2147483648 → kmalloc K c.st n = .ok (s, p) →
      KReach K h₀ ⟨s, c.live, c.shadow, c.freed⟩
  | free {c s p n} : KReach K h₀ c → (p, n) ∈ c.live → kfree c.st p = .ok s →
      KReach K h₀ ⟨s, c.live.filter (fun b => b.1 ≠ p), c.shadow, p :: c.freed⟩
  | again {c s p} : KReach K h₀ c → p ∈ c.freed → kfree c.st p = .ok s → KReach K h₀ ⟨s, c.live, c.shadow, c.freed⟩
  | resize {c s p q n} (n' : Nat) : KReach K h₀ c → KRoom K c.st.b → (p, n) ∈ c.live → 1 ≤ n' → n' ≤ Spec.kMax →
      krealloc K c.st p n' = .ok (s, q) →
      KReach K h₀ ⟨s, (q, n') :: c.live.filter (fun b => b.1 ≠ p),
        fun a => if q ≤ a ∧ a < q + n' then (if a < q + n then c.shadow (a - q + p) else none) else c.shadow a,
        (if p = q then c.freed else p :: c.freed.filter (fun x => x ≠ q))⟩
  | store {c p n} (i : Nat) (b : Byte) : KReach K h₀ c → (p, n) ∈ c.live → i < n →
      KReach K h₀ ⟨c.st.setMem (c.st.mem.upd (p + i) b), c.live, c.shadow.upd (p + i) b, c.freed⟩

end Minilib

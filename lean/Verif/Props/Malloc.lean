import Verif.Lemmas.Heap
/-
Properties C17-C21: the arena allocator, for every history of a correct program (`Reach`).
-/

set_option autoImplicit false

namespace Minilib
open Mem

/-! An arena of 256 bytes at 4096, all zero, used in the examples. -/

def exArena : Arena := ⟨4096, 256⟩
def exHeapMem : Mem := fun a => if 4096 ≤ a ∧ a < 4352 then some 0#8 else none

theorem exArena_ok : exArena.Ok exHeapMem := by
  refine ⟨by decide, by decide, by decide, by decide, by decide, ?_⟩
  intro i hi
  refine ⟨0#8, if_pos ?_⟩
  simp only [exArena] at hi ⊢; omega

/-! ### C20 -/

/-- C20 as stated: for every request of at least one byte. -/
def C20_malloc_full : Prop :=
  ∀ (A : Arena) (m₀ : Mem) (c : Client), A.Ok m₀ → Reach A m₀ c → ∀ n : Nat, 1 ≤ n → n ≤ 2147483647 →
    (c.heap.mbufsize < need n + 64 → malloc A c.heap n = .ok (c.heap, 0)) ∧
    (need n + 64 ≤ c.heap.mbufsize → ∃ h p, malloc A c.heap n = .ok (h, p) ∧ p ≠ 0 ∧
      h.mbufsize = c.heap.mbufsize - need n)

/-- The size computation overflows `int` for the seven largest requests. -/
theorem C20_malloc_refuted : ¬ C20_malloc_full := by
  intro h
  have := (h exArena exHeapMem _ exArena_ok .init 2147483647 (by decide) (by decide)).1 (by decide)
  have h2 : malloc exArena (Heap.init exArena exHeapMem) (2147483647 : Nat) = .ub := by rfl
  simp only at this
  rw [h2] at this
  cases this

/-- C20: a request of `n` bytes fails exactly when 64 bytes would not remain, and then changes
nothing; otherwise it succeeds and takes exactly `need n` bytes.  (Partial: `n ≤ INT_MAX - 7`.) -/
theorem C20_malloc_partial {A : Arena} {m₀ : Mem} (hA : A.Ok m₀) {c : Client} (r : Reach A m₀ c) {n : Nat}
    (h1 : 1 ≤ n) (h2 : n ≤ 2147483640) :
    (c.heap.mbufsize < need n + 64 → malloc A c.heap n = .ok (c.heap, 0)) ∧
    (need n + 64 ≤ c.heap.mbufsize → ∃ h p, malloc A c.heap n = .ok (h, p) ∧ p ≠ 0 ∧
      h.mbufsize = c.heap.mbufsize - need n) := by
  obtain ⟨bs, L⟩ := reach_linked hA r
  have hmb := L.heap.mb0
  have htot := chain_total L.heap.chain
  have hsz := L.heap.sizeLt
  have hsg := L.heap.sizeGe
  constructor
  · intro h
    exact malloc_fail h1 h2 hmb (by omega) (by omega)
  · intro h
    obtain ⟨h', e1, e2, e3, e4⟩ := malloc_succ L.heap h1 h2 (by omega)
    exact ⟨h', _, e1, by omega, e2⟩

example : ∃ h p, malloc exArena (Heap.init exArena exHeapMem) 20 = .ok (h, p) ∧ p ≠ 0 ∧ h.mbufsize = 228 :=
  (C20_malloc_partial exArena_ok .init (n := 20) (by decide) (by decide)).2 (by decide)

example : malloc exArena (Heap.init exArena exHeapMem) 200 = .ok (Heap.init exArena exHeapMem, 0) :=
  (C20_malloc_partial exArena_ok .init (n := 200) (by decide) (by decide)).1 (by decide)

/-! ### C17 -/

/-- C17: in every history, requests and frees of held blocks are executed without touching anything
outside the arena (never undefined), and the blocks held are 4-byte aligned, lie inside the arena
above the scratch area of at least 64 bytes and below the end marker, and are pairwise disjoint. -/
theorem C17_history {A : Arena} {m₀ : Mem} (hA : A.Ok m₀) {c : Client} (r : Reach A m₀ c) :
    (∀ n : Nat, 1 ≤ n → n ≤ 2147483640 → ∃ h p, malloc A c.heap n = .ok (h, p)) ∧
    (∀ p n, (p, n) ∈ c.live → ∃ h, free A c.heap p = .ok h) ∧
    (∀ p n, (p, n) ∈ c.live → p % 4 = 0 ∧ 64 ≤ c.heap.mbufsize ∧
      (A.base : Int) + c.heap.mbufsize + 4 ≤ p ∧ p + n ≤ A.base + A.size - 4) ∧
    c.live.Pairwise (fun b b' => b.1 + b.2 + 4 ≤ b'.1 ∨ b'.1 + b'.2 + 4 ≤ b.1) := by
  obtain ⟨bs, L⟩ := reach_linked hA r
  have hge2 := chain_ge2 L.heap.chain
  have htot := chain_total L.heap.chain
  have hmb := L.heap.mb0
  have hmb4 := L.heap.mb4
  have hb4 := L.heap.base4
  refine ⟨?_, ?_, ?_, ?_⟩
  · intro n h1 h2
    by_cases h : c.heap.mbufsize < need n + 64
    · exact ⟨_, _, (C20_malloc_partial hA r h1 h2).1 h⟩
    · obtain ⟨h, p, e, _⟩ := (C20_malloc_partial hA r h1 h2).2 (by omega)
      exact ⟨h, p, e⟩
  · intro p n hl
    obtain ⟨h', _, e1, _⟩ := free_spec L.heap (L.held p n hl).2
    exact ⟨h', e1⟩
  · intro p n hl
    have hb := liveBlks_bounds (L.held p n hl).2 hge2
    have ha := liveBlks_aligned (L.held p n hl).2 (by omega)
    have hr := L.heap.reserve (by
      rintro rfl
      have := (L.held p n hl).2
      simp [liveBlks] at this)
    refine ⟨ha.1, hr, by omega, by omega⟩
  · have hnd := L.nodup
    rw [List.Nodup, List.pairwise_map] at hnd
    refine hnd.imp_of_mem ?_
    rintro ⟨p, n⟩ ⟨q, k⟩ h1 h2 hne
    exact liveBlks_disjoint_hdr hge2 (L.held p n h1).2 (L.held q k h2).2 hne (by omega) (by omega)

/-- C17: a successful request adds one block, distinct from all held ones (stated for the state
after the call). -/
theorem C17_fresh {A : Arena} {m₀ : Mem} (hA : A.Ok m₀) {c : Client} (r : Reach A m₀ c) {n : Nat}
    (h1 : 1 ≤ n) (h2 : n ≤ 2147483640) {h : Heap} {p : Nat} (hm : malloc A c.heap n = .ok (h, p))
    (hp : p ≠ 0) : p % 4 = 0 ∧ A.base + 64 ≤ p ∧ p + n ≤ A.base + A.size - 4 ∧
      ∀ q k, (q, k) ∈ c.live → p + n ≤ q ∨ q + k ≤ p := by
  have r' := Reach.malloc_ok n r h1 h2 hm hp
  obtain ⟨_, _, h3, h4⟩ := C17_history hA r'
  obtain ⟨e1, e2, e3, e4⟩ := h3 p n (by simp)
  refine ⟨e1, by omega, e4, ?_⟩
  intro q k hq
  have := (List.pairwise_cons.1 h4).1 (q, k) hq
  simp only at this
  omega

/-- A history of five steps that leaves two blocks. -/
theorem exHistory : ∃ c p q, Reach exArena exHeapMem c ∧ c.live = [(q, 30), (p, 10)] ∧ p ≠ q ∧
    c.shadow (p + 9) = some 7#8 := by
  obtain ⟨h1, p1, e1, n1, b1⟩ := (C20_malloc_partial exArena_ok .init (n := 20) (by decide) (by decide)).2 (by decide)
  have r1 := Reach.malloc_ok 20 .init (by decide) (by decide) e1 n1
  have b1' : h1.mbufsize = 228 := by rw [b1]; rfl
  obtain ⟨h2, p2, e2, n2, b2⟩ := (C20_malloc_partial exArena_ok r1 (n := 10) (by decide) (by decide)).2
    (by simp only [b1']; decide)
  have r2 := Reach.malloc_ok 10 r1 (by decide) (by decide) e2 n2
  have b2' : h2.mbufsize = 212 := by rw [b2]; simp only [b1']; rfl
  have r3 := Reach.store 9 7#8 r2 (p := p2) (n := 10) (by simp) (by decide)
  have hd := (C17_history exArena_ok r2).2.2.2
  have hne : p1 ≠ p2 := by
    have := (List.pairwise_cons.1 hd).1 (p1, 20) (by simp)
    simp only at this; omega
  obtain ⟨h4, e4⟩ := (C17_history exArena_ok r3).2.1 p1 20 (by simp)
  have r4 := Reach.free r3 (p := p1) (n := 20) (by simp) e4
  obtain ⟨bs, L⟩ := reach_linked exArena_ok r3
  obtain ⟨h4', bs', e4', _, hmb, _⟩ := free_spec L.heap (L.held p1 20 (by simp)).2
  rw [e4] at e4'
  injection e4' with e4'
  subst e4'
  simp only [b2'] at hmb
  obtain ⟨h5, p5, e5, n5, b5⟩ := (C20_malloc_partial exArena_ok r4 (n := 30) (by decide) (by decide)).2
    (by have : (need 30 : Int) = 36 := by decide
        simp only [this]; omega)
  have r5 := Reach.malloc_ok 30 r4 (by decide) (by decide) e5 n5
  have hd5 := (C17_history exArena_ok r5).2.2.2
  have hl : ([(p2, 10), (p1, 20)] : List (Nat × Nat)).filter (fun b => b.1 ≠ p1) = [(p2, 10)] := by
    simp [Ne.symm hne]
  simp only [hl] at r5 hd5
  have := (List.pairwise_cons.1 hd5).1 (p2, 10) (by simp)
  simp only at this
  refine ⟨_, p2, p5, r5, rfl, by omega, ?_⟩
  simp only [forget]
  rw [if_neg (by omega), upd_same]

example : ∃ c p q, Reach exArena exHeapMem c ∧ c.live = [(q, 30), (p, 10)] ∧
    (p + 10 + 4 ≤ q ∨ q + 30 + 4 ≤ p) := by
  obtain ⟨c, p, q, r, hl, _⟩ := exHistory
  refine ⟨c, p, q, r, hl, ?_⟩
  have := (C17_history exArena_ok r).2.2.2
  rw [hl] at this
  have := (List.pairwise_cons.1 this).1 (p, 10) (by simp)
  simp only at this
  omega

/-- The same holds for an arena full of ones (every word looks like a free block of the largest size):
a block is allocated and freed again. -/
example : ∃ h p k, malloc exArena (Heap.init exArena fun a => if 4096 ≤ a ∧ a < 4352 then some 255#8 else none) 20 = .ok (h, p) ∧
    p ≠ 0 ∧ free exArena h p = .ok k ∧ h.mbufsize = 228 := by
  have ok : exArena.Ok fun a => if 4096 ≤ a ∧ a < 4352 then some 255#8 else none :=
    ⟨by decide, by decide, by decide, by decide, by decide, fun i hi => ⟨255#8, if_pos (by simp only [exArena] at hi ⊢; omega)⟩⟩
  obtain ⟨h, p, e, hp, hb⟩ := (C20_malloc_partial ok .init (n := 20) (by decide) (by decide)).2 (by decide)
  obtain ⟨k, ek⟩ := (C17_history ok (.malloc_ok 20 .init (by decide) (by decide) e hp)).2.1 p 20 (by simp)
  exact ⟨h, p, k, e, hp, ek, hb⟩

/-! ### C18 -/

/-- C18: what the program stored in a block is still there, whatever happened since. -/
theorem C18_history {A : Arena} {m₀ : Mem} (hA : A.Ok m₀) {c : Client} (r : Reach A m₀ c)
    {p n i : Nat} {b : Byte} (hl : (p, n) ∈ c.live) (hi : i < n) (hs : c.shadow (p + i) = some b) :
    c.heap.mem (p + i) = some b := by
  obtain ⟨bs, L⟩ := reach_linked hA r
  exact L.shadow p n i b hl hi hs

example : ∃ c p q, Reach exArena exHeapMem c ∧ c.live = [(q, 30), (p, 10)] ∧
    c.heap.mem (p + 9) = some 7#8 := by
  obtain ⟨c, p, q, r, hl, _, hs⟩ := exHistory
  exact ⟨c, p, q, r, hl, C18_history exArena_ok r (p := p) (n := 10) (by simp [hl]) (by decide) hs⟩

/-- C18: one `malloc` changes no byte of a held block and nothing outside the arena. -/
theorem C18_malloc {A : Arena} {m₀ : Mem} (hA : A.Ok m₀) {c : Client} (r : Reach A m₀ c) {n : Nat}
    (h1 : 1 ≤ n) (h2 : n ≤ 2147483640) {h : Heap} {p : Nat} (hm : malloc A c.heap n = .ok (h, p)) :
    (∀ q k i, (q, k) ∈ c.live → i < k → h.mem (q + i) = c.heap.mem (q + i)) ∧
    (∀ x, x < A.base ∨ A.base + A.size ≤ x → h.mem x = c.heap.mem x) := by
  obtain ⟨bs, L⟩ := reach_linked hA r
  have hmb := L.heap.mb0
  have htot := chain_total L.heap.chain
  have hge2 := chain_ge2 L.heap.chain
  have hsz := L.heap.sizeLt
  have hsg := L.heap.sizeGe
  by_cases hr : c.heap.mbufsize - need n < 64
  · rw [malloc_fail h1 h2 hmb (by omega) hr] at hm
    injection hm with hm
    injection hm with hm _
    subst hm
    exact ⟨fun _ _ _ _ _ => rfl, fun _ _ => rfl⟩
  · obtain ⟨h', e1, e2, e3, e4⟩ := malloc_succ L.heap h1 h2 (by omega)
    rw [e1] at hm
    injection hm with hm
    injection hm with hm hm2
    subst hm
    have e3m := e3.mb0
    have htot' := chain_total e3.chain
    simp only [total] at htot'
    constructor
    · intro q k i hq hi
      have hb := liveBlks_bounds (L.held q k hq).2 hge2
      by_cases hx : h'.mem (q + i) = c.heap.mem (q + i)
      · exact hx
      · have := e4 _ hx
        omega
    · intro x hx
      by_cases hx' : h'.mem x = c.heap.mem x
      · exact hx'
      · have := e4 _ hx'
        omega

/-- C18: one `free` changes no byte of another held block, of the scratch area, or outside the arena. -/
theorem C18_free {A : Arena} {m₀ : Mem} (hA : A.Ok m₀) {c : Client} (r : Reach A m₀ c) {p n : Nat}
    (hl : (p, n) ∈ c.live) {h : Heap} (hf : free A c.heap p = .ok h) :
    (∀ q k i, (q, k) ∈ c.live → q ≠ p → i < k → h.mem (q + i) = c.heap.mem (q + i)) ∧
    (∀ x : Nat, (x : Int) < A.base + c.heap.mbufsize ∨ A.base + A.size ≤ x → h.mem x = c.heap.mem x) := by
  obtain ⟨bs, L⟩ := reach_linked hA r
  have hmb := L.heap.mb0
  obtain ⟨h', bs', e1, e2, e3, e4, e5, e6⟩ := free_spec L.heap (L.held p n hl).2
  rw [e1] at hf
  injection hf with hf
  subst hf
  constructor
  · intro q k i hq hne hi
    exact e6 q _ _ (L.held q k hq).2 hne (by omega) (by omega)
  · intro x hx
    exact e5 x (by omega)

example : ∃ c p q h, Reach exArena exHeapMem c ∧ c.live = [(q, 30), (p, 10)] ∧
    free exArena c.heap q = .ok h ∧ h.mem (p + 9) = some 7#8 := by
  obtain ⟨c, p, q, r, hl, hne, hs⟩ := exHistory
  obtain ⟨h, hf⟩ := (C17_history exArena_ok r).2.1 q 30 (by simp [hl])
  refine ⟨c, p, q, h, r, hl, hf, ?_⟩
  rw [(C18_free exArena_ok r (p := q) (n := 30) (by simp [hl]) hf).1 p 10 9 (by simp [hl]) hne (by decide)]
  exact C18_history exArena_ok r (p := p) (n := 10) (by simp [hl]) (by decide) hs

/-! ### C19 -/

/-- C19: when every block has been freed, the allocator answers every sequence of requests as it did
at program start: the same pointers, the same failures. -/
theorem C19_all_freed {A : Arena} {m₀ : Mem} (hA : A.Ok m₀) {c : Client} (r : Reach A m₀ c)
    (hl : c.live = []) :
    c.heap.mbufsize = (Heap.init A m₀).mbufsize ∧
    ∀ ns : List Nat, (∀ n ∈ ns, 1 ≤ n ∧ n ≤ 2147483640) →
      ∃ h h₀ ps, mallocs A c.heap ns = .ok (h, ps) ∧ mallocs A (Heap.init A m₀) ns = .ok (h₀, ps) := by
  obtain ⟨bs, L⟩ := reach_linked hA r
  obtain ⟨bs₀, L₀⟩ := reach_linked hA Reach.init
  have hbs := linked_nil L hl
  subst hbs
  have htot := L.heap.chain.1
  have hmb := L.heap.mb0
  have hsg := L.heap.sizeGe
  have e : c.heap.mbufsize = (Heap.init A m₀).mbufsize := by
    simp only [Heap.init]; omega
  refine ⟨e, ?_⟩
  intro ns hns
  exact mallocs_same hns L.heap L₀.heap e

/-- Free the given pointers one after the other. -/
def freeAll (A : Arena) (h : Heap) : List Nat → Res Heap
  | [] => .ok h
  | p :: ps => do
    let h ← free A h p
    freeAll A h ps

/-- C19: freeing all blocks held, in any order, gives the whole arena back. -/
theorem C19_any_order {A : Arena} {m₀ : Mem} (hA : A.Ok m₀) {c : Client} (r : Reach A m₀ c)
    {ps : List Nat} (hp : ps.Perm (c.live.map (·.1))) :
    ∃ h, freeAll A c.heap ps = .ok h ∧ h.mbufsize = (Heap.init A m₀).mbufsize := by
  induction ps generalizing c with
  | nil =>
    have : c.live = [] := by
      have := hp.symm.eq_nil
      simpa using this
    exact ⟨c.heap, rfl, (C19_all_freed hA r this).1⟩
  | cons p ps ih =>
    obtain ⟨bs, L⟩ := reach_linked hA r
    have hmem : p ∈ c.live.map (·.1) := hp.subset (by simp)
    obtain ⟨⟨q, n⟩, hq, rfl⟩ := List.mem_map.1 hmem
    obtain ⟨h, hf⟩ := (C17_history hA r).2.1 q n hq
    have r' := Reach.free r hq hf
    obtain ⟨h', e1, e2⟩ := ih r' (perm_filter_fst hp L.nodup)
    exact ⟨h', by rw [freeAll, hf]; exact e1, e2⟩

example : ∃ c p q h, Reach exArena exHeapMem c ∧ c.live = [(q, 30), (p, 10)] ∧
    freeAll exArena c.heap [p, q] = .ok h ∧ h.mbufsize = 252 := by
  obtain ⟨c, p, q, r, hl, _⟩ := exHistory
  obtain ⟨h, e1, e2⟩ := C19_any_order exArena_ok r (ps := [p, q]) (by rw [hl]; exact .swap q p [])
  exact ⟨c, p, q, h, r, hl, e1, e2⟩

/-! ### C21 -/

/-- C21 as stated, for negative sizes: refused without effect. -/
def C21_negative_full : Prop :=
  ∀ (A : Arena) (m₀ : Mem) (c : Client), A.Ok m₀ → Reach A m₀ c → ∀ n : Int, INT_MIN ≤ n → n < 0 →
    malloc A c.heap n = .ok (c.heap, 0)

/-- C21 as stated, for size 0: NULL, or a block that can be freed in any order: here before the block
allocated after it; freeing both gives the space back. -/
def C21_zero_full : Prop :=
  ∀ (A : Arena) (m₀ : Mem) (c : Client), A.Ok m₀ → Reach A m₀ c → ∀ h p, malloc A c.heap 0 = .ok (h, p) →
    p ≠ 0 → ∀ (n : Nat) h2 q h3 h4, 1 ≤ n → malloc A h n = .ok (h2, q) → q ≠ 0 →
      free A h2 p = .ok h3 → free A h3 q = .ok h4 → h4.mbufsize = c.heap.mbufsize

/-- `malloc(-100)` after `malloc(100)` succeeds and returns a pointer into the live block. -/
theorem C21_negative_refuted : ¬ C21_negative_full ∧
    ∃ c h q, Reach exArena exHeapMem c ∧ c.live = [(4248, 100)] ∧
      malloc exArena c.heap (-100) = .ok (h, q) ∧ 4248 ≤ q ∧ q + 4 ≤ 4248 + 100 := by
  have hw : ∃ c h q, Reach exArena exHeapMem c ∧ c.live = [(4248, 100)] ∧
      malloc exArena c.heap (-100) = .ok (h, q) ∧ 4248 ≤ q ∧ q + 4 ≤ 4248 + 100 := by
    obtain ⟨h1, e1, h2, e2⟩ : ∃ h1, malloc exArena (Heap.init exArena exHeapMem) (100 : Nat) = .ok (h1, 4248) ∧
        ∃ h2, malloc exArena h1 (-100) = .ok (h2, 4344) := ⟨_, rfl, _, rfl⟩
    exact ⟨_, h2, _, Reach.malloc_ok 100 .init (by decide) (by decide) e1 (by decide), rfl, e2,
      by decide, by decide⟩
  refine ⟨?_, hw⟩
  intro hf
  obtain ⟨c, h, q, r, _, hm, hq, _⟩ := hw
  rw [hf _ _ c exArena_ok r (-100) (by decide) (by decide)] at hm
  injection hm with hm
  injection hm with _ hm
  omega

/-- `a = malloc(0); b = malloc(8); free(a); free(b)`: the word of `a` is lost for good. -/
theorem C21_zero_refuted : ¬ C21_zero_full := by
  intro hf
  obtain ⟨h1, e1, h2, e2, h3, e3, h4, e4, e5⟩ :
      ∃ h1, malloc exArena (Heap.init exArena exHeapMem) 0 = .ok (h1, 4348) ∧
      ∃ h2, malloc exArena h1 (8 : Nat) = .ok (h2, 4336) ∧
      ∃ h3, free exArena h2 4348 = .ok h3 ∧
      ∃ h4, free exArena h3 4336 = .ok h4 ∧ h4.mbufsize = 248 :=
    ⟨_, rfl, _, rfl, _, rfl, _, rfl, rfl⟩
  have := hf _ _ _ exArena_ok .init h1 _ e1 (by decide) 8 h2 _ h3 h4 (by decide) e2 (by decide) e3 e4
  rw [e5] at this
  revert this
  decide

/-- C21, what does hold: `malloc(0)` fails without effect, or yields an aligned pointer above the
reserve which, freed before any other call, leaves the space and all held blocks as they were. -/
theorem C21_zero_partial {A : Arena} {m₀ : Mem} (hA : A.Ok m₀) {c : Client} (r : Reach A m₀ c) :
    malloc A c.heap 0 = .ok (c.heap, 0) ∨
    ∃ h p h', malloc A c.heap 0 = .ok (h, p) ∧ p % 4 = 0 ∧ A.base + 64 < p ∧ free A h p = .ok h' ∧
      h'.mbufsize = c.heap.mbufsize ∧
      (∀ q k i, (q, k) ∈ c.live → i < k → h'.mem (q + i) = c.heap.mem (q + i)) := by
  obtain ⟨bs, L⟩ := reach_linked hA r
  exact malloc_zero L

example : ∃ h p, malloc exArena (Heap.init exArena exHeapMem) 0 = .ok (h, p) ∧ p ≠ 0 :=
  ⟨_, 4348, rfl, by decide⟩

/-- C18: `free(NULL)` has no effect, in any state. -/
theorem C18_free_null (A : Arena) (h : Heap) : free A h 0 = .ok h := by
  unfold free
  rw [if_pos rfl]
  rfl

/-- Between two requests it changes nothing. -/
example : (free exArena (Heap.init exArena exHeapMem) 0 >>= fun h => malloc exArena h 12) = malloc exArena (Heap.init exArena exHeapMem) 12 := by
  rw [C18_free_null]; rfl

end Minilib

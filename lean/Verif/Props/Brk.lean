import Verif.Lemmas.Brk
import Verif.Lemmas.HeapFns
import Verif.Props.HeapFns
/-
C75: the allocator on the data segment (malloc_brk, free, realloc, free_brk, brk, sbrk, getbrk).
-/

set_option autoImplicit false

namespace Minilib
open Mem

/-- A data segment at 1 MiB that may grow to 512 MiB. -/
def exBrkK : BrkK := ⟨0x100000, fun _ => 0x20000000⟩

theorem exBrkK_ok : exBrkK.Ok := ⟨by decide, by decide, by decide, fun _ => by simp [exBrkK]⟩

/-- C75: in every history requests that the kernel grants succeed, frees of held blocks and resizing the block at the break
are defined; the blocks held lie, 4-byte aligned, between the start of the data segment and the break (behind a header),
and are pairwise disjoint.  Partial: requests of 0 or more than 268435448 bytes, refusals of the kernel, and `realloc` of
an inner block are not covered. -/
theorem C75_history_partial {K : BrkK} (hK : K.Ok) {A : Arena} {h₀ : Heap} {c : BClient} (r : BReach K A h₀ c) :
    (∀ n : Nat, 1 ≤ n → n ≤ 268435448 → K.Grants c.st (c.st.kbrk + need n) →
      ∃ s p, mallocBrk K c.st n = .ok (s, p) ∧ p ≠ 0 ∧ p % 4 = 0 ∧ p + n ≤ s.kbrk ∧
        ∀ q k, (q, k) ∈ c.live → q + k ≤ p) ∧
    (∀ p n, (p, n) ∈ c.live → ∃ s, freeB A K c.st p = .ok s) ∧
    (∀ p n n', (p, n) ∈ c.live → p + (need n - 4) = c.st.kbrk → 1 ≤ n' → n' ≤ 268435448 →
      K.Grants c.st (p + (need n' - 4)) → ∃ s, reallocB A K c.st p (n' : Nat) = .ok (s, p)) ∧
    (∀ p n, (p, n) ∈ c.live → p % 4 = 0 ∧ K.start + 4 ≤ p ∧ p + n ≤ c.st.kbrk ∧
      ∀ x, p ≤ x → x < p + n → c.st.heap.mem x ≠ none) ∧
    c.live.Pairwise (fun b b' => b.1 + b.2 + 4 ≤ b'.1 ∨ b'.1 + b'.2 + 4 ≤ b.1) := by
  obtain ⟨bs, L⟩ := breach_linked hK r
  have hpg := hK.page
  have hle := L.inv.le
  have hk4 : c.st.kbrk % 4 = 0 := by
    have h1 := bchain_total L.inv.chain
    have h2 := bchain_mod L.inv.chain
    omega
  refine ⟨?_, ?_, ?_, ?_, ?_⟩
  · intro n h1 h2 hg
    obtain ⟨s, e, I, hk, -, -⟩ := mallocBrk_spec hK L.inv h1 h2 hg
    have := need_ge (n := n)
    refine ⟨s, _, e, by omega, by omega, by omega, fun q k hq => ?_⟩
    have := L.bounds hq
    omega
  · intro p n hl
    obtain ⟨xs, b, ys, rfl, hfr, hp, -⟩ := bLive_split (L.live p n hl)
    obtain ⟨bn, bf⟩ := b
    simp only at hfr
    subst hfr
    obtain ⟨s, e, -⟩ := freeB_spec hK A L.inv hp
    exact ⟨s, e⟩
  · intro p n n' hl hend h1 h2 hg
    obtain ⟨xs, b, ys, rfl, hfr, hp, hsz⟩ := bLive_split (L.live p n hl)
    obtain ⟨bn, bf⟩ := b
    simp only at hfr hsz
    subst hfr
    have h8 := bchain_ge L.inv.chain
    have ht := bchain_total L.inv.chain
    rw [btotal_append] at ht
    have hb8 := h8 ⟨bn, false⟩ (by simp)
    simp only at hb8
    have hys : ys = [] := by
      cases ys with
      | nil => rfl
      | cons y ys =>
        have := h8 y (by simp)
        simp only [btotal] at ht
        omega
    subst hys
    obtain ⟨s, e, -⟩ := reallocB_spec hK A L.inv hp h1 h2 hg
    exact ⟨s, e⟩
  · intro p n hl
    have hb := L.bounds hl
    have hpu := le_pageUp c.st.kbrk
    exact ⟨by omega, hb.1, hb.2.1, fun x h1 h2 => L.inv.mapd x (by omega) (by omega)⟩
  · have h := L.nodup
    have hd : ∀ b ∈ c.live, ∀ b' ∈ c.live, b.1 ≠ b'.1 → b.1 + b.2 + 4 ≤ b'.1 ∨ b'.1 + b'.2 + 4 ≤ b.1 := by
      rintro ⟨p, n⟩ hp ⟨q, k⟩ hq hne
      exact L.disj hp hq hne
    exact List.Pairwise.imp_of_mem (fun ha hb hne => hd _ ha _ hb hne) h

/-- C75: what the program stored in a block is still there, whatever happened since. -/
theorem C75_contents_partial {K : BrkK} (hK : K.Ok) {A : Arena} {h₀ : Heap} {c : BClient} (r : BReach K A h₀ c)
    {p n i : Nat} {b : Byte} (hl : (p, n) ∈ c.live) (hi : i < n) (hs : c.shadow (p + i) = some b) :
    c.st.heap.mem (p + i) = some b := by
  obtain ⟨bs, L⟩ := breach_linked hK r
  exact L.shadow p n i b hl hi hs

/-- C75: `malloc_brk`, `free` and `realloc` of the last block change no byte of another held block, and nothing in front of
the data segment; `realloc` keeps the bytes of the block, up to the smaller size. -/
theorem C75_frame_partial {K : BrkK} (hK : K.Ok) {A : Arena} {h₀ : Heap} {c : BClient} (r : BReach K A h₀ c) :
    (∀ n s p, 1 ≤ n → n ≤ 268435448 → K.Grants c.st (c.st.kbrk + need n) → mallocBrk K c.st (n : Nat) = .ok (s, p) →
      s.kbrk = c.st.kbrk + need n ∧ ∀ x, x < c.st.kbrk → s.heap.mem x = c.st.heap.mem x) ∧
    (∀ p n s, (p, n) ∈ c.live → freeB A K c.st p = .ok s →
      (∀ q k i, (q, k) ∈ c.live → q ≠ p → i < k → s.heap.mem (q + i) = c.st.heap.mem (q + i)) ∧
      (∀ x, x < K.start → s.heap.mem x = c.st.heap.mem x)) ∧
    (∀ p n n' s q, (p, n) ∈ c.live → p + (need n - 4) = c.st.kbrk → 1 ≤ n' → n' ≤ 268435448 →
      K.Grants c.st (p + (need n' - 4)) → reallocB A K c.st p (n' : Nat) = .ok (s, q) → q = p ∧
      s.kbrk = p + (need n' - 4) ∧ (∀ i, i < n → i < n' → s.heap.mem (p + i) = c.st.heap.mem (p + i)) ∧
      (∀ q k i, (q, k) ∈ c.live → q ≠ p → i < k → s.heap.mem (q + i) = c.st.heap.mem (q + i)) ∧
      (∀ x, x < K.start → s.heap.mem x = c.st.heap.mem x)) := by
  obtain ⟨bs, L⟩ := breach_linked hK r
  have hle := L.inv.le
  refine ⟨?_, ?_, ?_⟩
  · intro n s p h1 h2 hg e
    obtain ⟨s', e', I, hk, -, hm⟩ := mallocBrk_spec hK L.inv h1 h2 hg
    rw [e'] at e
    obtain ⟨rfl, -⟩ : s' = s ∧ c.st.kbrk + 4 = p := by simpa using e
    exact ⟨hk, hm⟩
  · intro p n s hl e
    have hbp := L.bounds hl
    obtain ⟨bs', L'⟩ := breach_linked hK (BReach.free r hl e)
    obtain ⟨xs, b, ys, rfl, hfr, hp, -⟩ := bLive_split (L.live p n hl)
    obtain ⟨bn, bf⟩ := b
    simp only at hfr
    subst hfr
    obtain ⟨s', e', I, hk, -, hm⟩ := freeB_spec hK A L.inv hp
    rw [e'] at e
    obtain rfl : s' = s := by simpa using e
    refine ⟨fun q k i hq hne hi => ?_, fun x hx => ?_⟩
    · have hb := L'.bounds (p := q) (n := k) (by simp [hq, hne])
      have hd := L.disj hq hl hne
      simp only at hb
      exact hm _ (by omega) (by omega)
    · have := I.le
      exact hm x (by omega) (by omega)
  · intro p n n' s q hl hend h1 h2 hg e
    have hbp := L.bounds hl
    obtain ⟨bs', L'⟩ := breach_linked hK (BReach.resize n' r hl hend h1 h2 hg e)
    obtain ⟨xs, b, ys, rfl, hfr, hp, hsz⟩ := bLive_split (L.live p n hl)
    obtain ⟨bn, bf⟩ := b
    simp only at hfr hsz
    subst hfr
    have h8 := bchain_ge L.inv.chain
    have ht := bchain_total L.inv.chain
    rw [btotal_append] at ht
    have hb8 := h8 ⟨bn, false⟩ (by simp)
    simp only at hb8
    have hys : ys = [] := by
      cases ys with
      | nil => rfl
      | cons y ys =>
        have := h8 y (by simp)
        simp only [btotal] at ht
        omega
    subst hys
    obtain ⟨s', e', I, hk, -, hm⟩ := reallocB_spec hK A L.inv hp h1 h2 hg
    rw [e'] at e
    obtain ⟨rfl, rfl⟩ : s' = s ∧ p = q := by simpa using e
    have hn := need_ge (n := n)
    have hn' := need_ge (n := n')
    refine ⟨rfl, hk, fun i hi hi' => hm _ (by omega) (by omega) (by omega), fun q k i hq hne hi => ?_, fun x hx => ?_⟩
    · have hb := L'.bounds (p := q) (n := k) (by simp [hq, hne])
      have hb' := L.bounds hq
      have hd := L.disj hq hl hne
      simp only at hb
      exact hm _ (by omega) (by omega) (by omega)
    · have := I.le
      exact hm x (by omega) (by omega) (by omega)

/-- C75, giving memory back: a block that ends at the break returns its space (the next request gets the same pointer);
returning to a saved break, and `free_brk`, set exactly that break; `free_brk` tells whether there was anything to free. -/
theorem C75_giveback {K : BrkK} (hK : K.Ok) {A : Arena} {h₀ : Heap} {c : BClient} (r : BReach K A h₀ c) :
    (∃ s, getbrk K c.st = (s, (c.st.kbrk : Int)) ∧ s.kbrk = c.st.kbrk) ∧
    (∀ p n s, (p, n) ∈ c.live → p + (need n - 4) = c.st.kbrk → freeB A K c.st p = .ok s → s.kbrk = p - 4) ∧
    (∀ b ∈ c.saved, ∃ s, brk K c.st (b : Nat) = (s, 0) ∧ s.kbrk = b ∧ ∀ x, x < b → s.heap.mem x = c.st.heap.mem x) ∧
    (∃ s, freeBrk K c.st = (s, if c.st.kbrk = K.start then 1 else 0) ∧ s.kbrk = K.start ∧
      ∀ x, x < K.start → s.heap.mem x = c.st.heap.mem x) := by
  obtain ⟨bs, L⟩ := breach_linked hK r
  refine ⟨?_, ?_, ?_, ?_⟩
  · obtain ⟨s, e, -, -, h, -⟩ := getbrk_spec hK L.inv
    exact ⟨s, e, h⟩
  · intro p n s hl hend e
    obtain ⟨xs, b, ys, rfl, hfr, hp, hsz⟩ := bLive_split (L.live p n hl)
    obtain ⟨bn, bf⟩ := b
    simp only at hfr hsz
    subst hfr
    have h8 := bchain_ge L.inv.chain
    have ht := bchain_total L.inv.chain
    rw [btotal_append] at ht
    have hb8 := h8 ⟨bn, false⟩ (by simp)
    simp only at hb8
    have hys : ys = [] := by
      cases ys with
      | nil => rfl
      | cons y ys =>
        have := h8 y (by simp)
        simp only [btotal] at ht
        omega
    subst hys
    obtain ⟨s', e', I, hk, -, hm⟩ := freeB_spec hK A L.inv hp
    rw [e'] at e
    obtain rfl : s' = s := by simpa using e
    simpa using hk
  · intro b hb
    obtain ⟨xs, ys, rfl, hbx⟩ := L.saved b hb
    obtain ⟨s, e, I, k1, -, -, -, hm⟩ := brk_cut hK L.inv hbx
    exact ⟨s, e, k1, fun x hx => hm x (by have := le_pageUp b; omega)⟩
  · obtain ⟨s, e, I, hk, -, hm⟩ := freeBrk_spec hK L.inv
    have ht := bchain_total L.inv.chain
    refine ⟨s, ?_, hk, hm⟩
    rw [e]
    cases bs with
    | nil => simp only [btotal] at ht; rw [if_pos rfl, if_pos (by omega)]
    | cons b bs =>
      have := L.inv.chain.1
      simp only [btotal] at ht
      rw [if_neg (by simp), if_neg (by omega)]

/-- A history: two blocks, the second one resized, freed, and everything given back. -/
example : ∃ c, BReach exBrkK exArena ⟨exHeapMem, 252⟩ c ∧ c.live = [(0x100010, 5000), (0x100004, 8)] ∧ c.st.kbrk = 0x101398 ∧
    c.saved = [0x10000c] ∧ c.shadow 0x100007 = some 7#8 := by
  have g : ∀ s a, a ≤ 0x20000000 → exBrkK.Grants s a := fun s a h k _ _ => h
  obtain ⟨s1, e1, k1⟩ : ∃ s, mallocBrk exBrkK (BrkSt.init exBrkK ⟨exHeapMem, 252⟩) (8 : Nat) = .ok (s, 0x100004) ∧
      s.kbrk = 0x10000c := ⟨_, rfl, rfl⟩
  have r1 := BReach.alloc (A := exArena) 8 .init (by decide) (by decide) (g _ _ (by decide)) e1
  have r2 := BReach.store 3 7#8 r1 (p := 0x100004) (n := 8) (by simp) (by decide)
  obtain ⟨-, -, -, -⟩ := C75_giveback exBrkK_ok r2
  obtain ⟨⟨s3, e3, k3⟩, -⟩ := C75_giveback exBrkK_ok r2
  have r3 := BReach.save r2 e3
  have k3' : s3.kbrk = 0x10000c := by rw [k3]; exact k1
  obtain ⟨h4, -⟩ := C75_history_partial exBrkK_ok r3
  obtain ⟨bs, L⟩ := breach_linked exBrkK_ok r3
  obtain ⟨s4, e4, -, k4, -⟩ := mallocBrk_spec exBrkK_ok L.inv (n := 1) (by decide) (by decide)
    (g _ _ (by simp only [k3']; decide))
  have r4 := BReach.alloc 1 r3 (by decide) (by decide) (g _ _ (by simp only [k3']; decide)) e4
  simp only [k3'] at k4 r4
  obtain ⟨bs, L⟩ := breach_linked exBrkK_ok r4
  obtain ⟨-, -, h5, -⟩ := C75_history_partial exBrkK_ok r4
  obtain ⟨s5, e5⟩ := h5 0x100010 1 5000 (by simp) (by simp only [k4]; decide) (by decide) (by decide) (g _ _ (by decide))
  obtain ⟨-, -, h6⟩ := C75_frame_partial exBrkK_ok r4
  have h7 := h6 0x100010 1 5000 s5 0x100010 (by simp) (by simp only [k4]; decide) (by decide) (by decide)
    (g _ _ (by decide)) e5
  have r5 := BReach.resize 5000 r4 (p := 0x100010) (n := 1) (by simp) (by simp only [k4]; decide) (by decide) (by decide)
    (g _ _ (by decide)) e5
  refine ⟨_, r5, by simp, by rw [h7.2.1]; rfl, ?_, ?_⟩
  · simp [k1]
  · simp [forget, Mem.upd]

/-- C75, full statement on refusals: `brk` returns 0 only if the break has been moved, and `malloc_brk` returns NULL when
the kernel does not give the memory. -/
def C75_refused_full : Prop :=
  ∀ (K : BrkK) (A : Arena) (h₀ : Heap), K.Ok → ∀ c, BReach K A h₀ c →
    (∀ (a : Nat) s, brk K c.st a = (s, 0) → s.kbrk = a) ∧
    (∀ (n : Nat) s p, 1 ≤ n → n ≤ 268435448 → mallocBrk K c.st n = .ok (s, p) → s.kbrk < c.st.kbrk + n → p = 0)

/-- A data segment that may grow by 100 bytes. -/
def exSmallK : BrkK := ⟨0x100000, fun _ => 0x100064⟩

/-- C75 fails when the kernel refuses: `brk` returns 0 without moving the break, and `malloc_brk` returns one and the same
pointer for two requests of 200 bytes, with 52 bytes up to the break. -/
theorem C75_refused_refuted : ¬ C75_refused_full ∧
    ∃ c s₁ s₂ p, BReach exSmallK exArena ⟨exHeapMem, 252⟩ c ∧ mallocBrk exSmallK c.st 200 = .ok (s₁, p) ∧
      mallocBrk exSmallK s₁ 200 = .ok (s₂, p) ∧ p ≠ 0 ∧ s₂.kbrk < p + 200 := by
  have ok : exSmallK.Ok := ⟨by decide, by decide, by decide, fun _ => by simp [exSmallK]⟩
  obtain ⟨s1, s2, s3, e1, k1, e2, e3, k2, k3⟩ : ∃ s1 s2 s3,
      mallocBrk exSmallK (BrkSt.init exSmallK ⟨exHeapMem, 252⟩) (40 : Nat) = .ok (s1, 0x100004) ∧ s1.kbrk = 0x10002c ∧
      mallocBrk exSmallK s1 200 = .ok (s2, 0x100030) ∧ mallocBrk exSmallK s2 200 = .ok (s3, 0x100030) ∧
      s2.kbrk = 0x10002c ∧ s3.kbrk = 0x10002c := ⟨_, _, _, rfl, rfl, rfl, rfl, rfl, rfl⟩
  have r1 := BReach.alloc (A := exArena) 40 .init (by decide) (by decide)
    (fun k _ _ => by simp [exSmallK, BrkSt.init, need]) e1
  refine ⟨fun hf => ?_, ⟨_, s2, s3, 0x100030, r1, e2, e3, by decide, by omega⟩⟩
  have h := (hf exSmallK exArena ⟨exHeapMem, 252⟩ ok _ r1).2 200 s2 0x100030 (by decide) (by decide) e2
    (by simp only [k1, k2]; decide)
  simp at h

/-- `brk` to an address beyond the limit: 0 is returned, the break stays. -/
theorem C75_brk_refuted : ∃ s, brk exSmallK (BrkSt.init exSmallK ⟨exHeapMem, 252⟩) 0x200000 = (s, 0) ∧ s.kbrk = 0x100000 :=
  ⟨_, rfl, rfl⟩

/-- C75, full statement on requests of 0 bytes: freeing a block of `malloc_brk(0)` after another block was freed and a
third requested leaves that third block as it is. -/
def C75_zero_full : Prop :=
  ∀ (K : BrkK) (A : Arena) (h₀ : Heap), K.Ok → (∀ k, K.start + 4096 ≤ K.limit k) → ∀ (n k : Nat), 1 ≤ n → n ≤ 100 → 1 ≤ k →
    k ≤ 100 → ∀ s₁ s₂ s₃ s₄ s₅ p q t, mallocBrk K (BrkSt.init K h₀) n = .ok (s₁, p) → mallocBrk K s₁ 0 = .ok (s₂, q) →
    freeB A K s₂ p = .ok s₃ → mallocBrk K s₃ k = .ok (s₄, t) → freeB A K s₄ q = .ok s₅ →
    ∀ i, i < k → s₅.heap.mem (t + i) = s₄.heap.mem (t + i)

/-- C75 fails for 0 bytes: `p = malloc_brk(8); q = malloc_brk(0); free(p); t = malloc_brk(100); free(q)` changes byte 4 of
the block `t`, because `free(p)` gave the space of both blocks back. -/
theorem C75_zero_refuted : ¬ C75_zero_full := by
  intro hf
  obtain ⟨s1, s2, s3, s4, s5, e1, e2, e3, e4, e5, b4, b5⟩ : ∃ s1 s2 s3 s4 s5,
      mallocBrk exBrkK (BrkSt.init exBrkK ⟨exHeapMem, 252⟩) (8 : Nat) = .ok (s1, 0x100004) ∧
      mallocBrk exBrkK s1 0 = .ok (s2, 0x100010) ∧ freeB exArena exBrkK s2 0x100004 = .ok s3 ∧
      mallocBrk exBrkK s3 (100 : Nat) = .ok (s4, 0x100004) ∧ freeB exArena exBrkK s4 0x100010 = .ok s5 ∧
      s4.heap.mem (0x100004 + 4) = some 0#8 ∧ s5.heap.mem (0x100004 + 4) = some 255#8 :=
    ⟨_, _, _, _, _, rfl, rfl, rfl, rfl, rfl, by decide +kernel, by decide +kernel⟩
  have h := hf exBrkK exArena ⟨exHeapMem, 252⟩ exBrkK_ok (fun _ => by simp [exBrkK]) 8 100 (by decide) (by decide) (by decide)
    (by decide) s1 s2 s3 s4 s5 _ _ _ e1 e2 e3 e4 e5 4 (by decide)
  rw [b4, b5] at h
  simp at h

/-- C75, full statement on large blocks: the space of a block that ends at the break is given back by `free`. -/
def C75_large_full : Prop :=
  ∀ (K : BrkK) (A : Arena) (h₀ : Heap), K.Ok → ∀ (n : Nat), 1 ≤ n → n ≤ 2147483640 →
    K.Grants (BrkSt.init K h₀) (K.start + need n) → ∀ s₁ s₂ p, mallocBrk K (BrkSt.init K h₀) n = .ok (s₁, p) →
    freeB A K s₁ p = .ok s₂ → s₂.kbrk = K.start

/-- C75 fails for large blocks: the size of a block of 2^28 bytes does not fit into its header, `free` does not give the
space back. -/
theorem C75_large_refuted : ¬ C75_large_full := by
  intro hf
  obtain ⟨s1, s2, e1, e2, k⟩ : ∃ s1 s2,
      mallocBrk exBrkK (BrkSt.init exBrkK ⟨exHeapMem, 252⟩) (268435456 : Nat) = .ok (s1, 0x100004) ∧
      freeB exArena exBrkK s1 0x100004 = .ok s2 ∧ s2.kbrk = 0x10100004 := ⟨_, _, rfl, rfl, rfl⟩
  have h := hf exBrkK exArena ⟨exHeapMem, 252⟩ exBrkK_ok 268435456 (by decide) (by decide)
    (fun k _ _ => by simp [exBrkK, need]) s1 s2 _ e1 e2
  rw [k] at h
  simp [exBrkK] at h

/-- C75, full statement on `realloc` of a block that is not the last one: blocks of the arena are not changed. -/
def C75_inner_full : Prop :=
  ∀ (K : BrkK) (A : Arena) (h₀ : Heap), K.Ok → A.Ok h₀.mem → A.base + A.size ≤ K.start →
    (∀ k, K.start + 4096 ≤ K.limit k) → ∀ h₁ t, malloc A (Heap.init A h₀.mem) 8 = .ok (h₁, t) → t ≠ 0 → ∀ s₁ s₂ s₃ p q u,
    mallocBrk K (BrkSt.init K h₁) 8 = .ok (s₁, p) → mallocBrk K s₁ 12 = .ok (s₂, q) → ∀ l, l.length = 12 →
    reallocB A K { s₂ with heap := ⟨s₂.heap.mem.write q l, s₂.heap.mbufsize⟩ } p 9 = .ok (s₃, u) →
    ∀ i, i < 8 → s₃.heap.mem (t + i) = s₂.heap.mem (t + i)

/-- The 24 bytes from the start of the first block. -/
def innerBytes : List Byte :=
  List.replicate 8 0#8 ++ [0x10#8, 0#8, 0#8, 0x10#8] ++ List.replicate 12 1#8

/-- C75 fails for inner blocks: `realloc` from 8 to 9 bytes takes a block of 16 bytes from the arena and copies 24 bytes to
it; the block behind it gets bytes of another one. -/
theorem C75_inner_refuted : ¬ C75_inner_full := by
  intro hf
  obtain ⟨h1, s1, s2, h3, s4, e1, e2, e3, e4, e5, hs, hd, e6, hb, b1, b2⟩ : ∃ h1 s1 s2 h3 s4,
      malloc exArena (Heap.init exArena exHeapMem) 8 = .ok (h1, 4340) ∧
      mallocBrk exBrkK (BrkSt.init exBrkK h1) 8 = .ok (s1, 0x100004) ∧ mallocBrk exBrkK s1 12 = .ok (s2, 0x100010) ∧
      malloc exArena ⟨s2.heap.mem.write 0x100010 (List.replicate 12 1#8), s2.heap.mbufsize⟩ 16 = .ok (h3, 4320) ∧
      reallocB exArena exBrkK
        { s2 with heap := ⟨s2.heap.mem.write 0x100010 (List.replicate 12 1#8), s2.heap.mbufsize⟩ } 0x100004 9 =
        reallocMove exArena exBrkK
          { s2 with heap := ⟨s2.heap.mem.write 0x100010 (List.replicate 12 1#8), s2.heap.mbufsize⟩ } 0x100004 12 16 ∧
      h3.mem.Holds 0x100004 innerBytes ∧ h3.mem.Mapped 4320 (4 * 6) ∧
      freeB exArena exBrkK { s2 with heap := ⟨h3.mem.write 4320 innerBytes, h3.mbufsize⟩ } 0x100004 = .ok s4 ∧
      s2.heap.mbufsize = 240 ∧ s2.heap.mem (4340 + 0) = some 0#8 ∧ s4.heap.mem (4340 + 0) = some 1#8 :=
    ⟨_, _, _, _, _, rfl, rfl, rfl, rfl, rfl, by decide +kernel, fun i hi => Option.isSome_iff_exists.1 (by
      revert i
      decide +kernel), rfl, rfl, by decide +kernel, by decide +kernel⟩
  have e7 := reallocCopy_eq (last := 4343) (by rfl : innerBytes.length = 4 * 6) hs hd (by decide) (by decide) (by decide)
  have e8 : reallocB exArena exBrkK
      { s2 with heap := ⟨s2.heap.mem.write 0x100010 (List.replicate 12 1#8), s2.heap.mbufsize⟩ } 0x100004 9 =
      .ok (s4, 4320) := by
    rw [e5, reallocMove, if_neg (by decide)]
    simp only [hb]
    rw [ckInt_ok (by decide) (by decide)]
    simp only [Res.ok_bind]
    rw [ckInt_ok (by decide) (by decide)]
    simp only [Res.ok_bind]
    rw [if_neg (by decide)]
    rw [hb] at e4
    rw [e4]
    simp only [Res.ok_bind]
    rw [show ((4320 : Nat) : Int) + 12 * 2 - 1 = ((4343 : Nat) : Int) by decide, e7]
    simp only [Res.ok_bind]
    rw [e6]
    rfl
  have h := hf exBrkK exArena ⟨exHeapMem, 252⟩ exBrkK_ok exArena_ok (by decide) (fun _ => by simp [exBrkK]) h1 4340 e1
    (by decide) s1 s2 s4 _ _ _ e2 e3 (List.replicate 12 1#8) (by decide) e8 0 (by decide)
  rw [b1, b2] at h
  simp at h

/-- C75: a byte stored in a block is read from it. -/
example : ∃ c, BReach exBrkK exArena ⟨exHeapMem, 252⟩ c ∧ c.st.heap.mem 0x100007 = some 7#8 := by
  obtain ⟨s1, e1⟩ : ∃ s, mallocBrk exBrkK (BrkSt.init exBrkK ⟨exHeapMem, 252⟩) (8 : Nat) = .ok (s, 0x100004) := ⟨_, rfl⟩
  have r1 := BReach.alloc (K := exBrkK) (h₀ := ⟨exHeapMem, 252⟩) (A := exArena) 8 .init (by decide) (by decide) (fun _ _ _ => show 0x100000 + need 8 ≤ 0x20000000 by decide) e1
  have r2 := BReach.store 3 7#8 r1 (p := 0x100004) (n := 8) (by simp) (by decide)
  exact ⟨_, r2, C75_contents_partial exBrkK_ok r2 (p := 0x100004) (n := 8) (i := 3) (by simp) (by decide) (by simp [Mem.upd])⟩

/-! ### blocks of the arena -/

theorem hdr_and_BRK {n : Nat} (h : n < 2 ^ 28) (fr q : Bool) : hdr n fr q &&& MALLOC_BRK = 0#32 := by
  unfold hdr
  rw [bv_or_and, bv_or_and, show MALLOC_BRK = BitVec.ofNat 32 (2 ^ 28) by rfl, ofNat_and_flag h 28 (by omega)]
  cases fr <;> cases q <;> simp [MBUF_FREE, MBUF_PREVISFREE]

/-- C75: with `mini_malloc_brk` a block of `malloc` is freed just as without, whatever has been done with the break. -/
theorem C75_arena_free {A : Arena} {m₀ : Mem} (hA : A.Ok m₀) {c : Client} (r : Reach A m₀ c) (K : BrkK) {s : BrkSt} (hs : s.heap = c.heap)
    {p n : Nat} (hl : (p, n) ∈ c.live) :
    ∃ h, free A c.heap p = .ok h ∧ freeB A K s p = .ok { s with heap := h } := by
  obtain ⟨h, e⟩ := (C17_history hA r).2.1 p n hl
  obtain ⟨hp0, hw, fq, hload⟩ := realloc_header hA r hl
  refine ⟨h, e, ?_⟩
  unfold freeB
  rw [if_neg hp0, hs, hload, Res.ok_bind, if_neg (by rw [hdr_and_BRK hw]; simp), e]
  rfl

/-- C75: and `realloc` gives the same answer and leaves the arena the same, as far as C23 says what it does: for NULL, the size
0, a block that stays, and a block that is moved and large enough for the copy.  The break is not moved. -/
theorem C75_arena_realloc_partial {A : Arena} {m₀ : Mem} (hA : A.Ok m₀) {c : Client} (r : Reach A m₀ c) (K : BrkK) {s : BrkSt} (hs : s.heap = c.heap) :
    (∀ n : Int, n ≠ 0 → reallocB A K s 0 n = (realloc A c.heap 0 n >>= fun x => pure ({ s with heap := x.1 }, x.2))) ∧
    ∀ p k, (p, k) ∈ c.live →
      (reallocB A K s p 0 = (realloc A c.heap p 0 >>= fun x => pure ({ s with heap := x.1 }, x.2))) ∧
      ∀ n : Nat, 1 ≤ n → n ≤ 2147483630 →
        (need n ≤ (k + 3) / 4 + 1 ∨ (copied k ≤ need n ∧ (k + 3) / 4 + 1 < need n ∧ need n + 4 + 64 ≤ c.heap.mbufsize)) →
        ∃ h q, realloc A c.heap p n = .ok (h, q) ∧ reallocB A K s p n = .ok ({ s with heap := h }, q) := by
  refine ⟨?_, ?_⟩
  · intro n hn
    unfold reallocB realloc
    rw [if_neg hn, if_neg hn, if_pos rfl, if_pos rfl, hs]
  · intro p k hl
    refine ⟨?_, ?_⟩
    · obtain ⟨h, e1, e2⟩ := C75_arena_free hA r K hs hl
      unfold reallocB realloc
      rw [if_pos rfl, if_pos rfl, e1, e2]
      rfl
    · intro n hn hn2 hc
      have hne : need n = 4 * ((n + 3) / 4 + 1) := rfl
      obtain ⟨hp0, hw, fq, hload⟩ := realloc_header hA r hl
      rcases hc with hsm | ⟨hfit, hgrow, hspace⟩
      · refine ⟨c.heap, p, (C23_realloc_shrink_partial hA r hl hn hn2 hsm).2, ?_⟩
        unfold reallocB
        rw [if_neg (by omega), if_neg hp0, hs, hload, Res.ok_bind, hdr_and_V_toNat hw, hdr_and_BRK hw]
        simp only
        rw [ckInt_ok (by omega) (by omega), Res.ok_bind, need_eq hn,
          show (((n + 3) / 4 + 1 : Nat) : Int) * 4 = (need n : Int) by omega,
          ckInt_ok (by omega) (by omega), Res.ok_bind]
        split
        · rw [← hs]; rfl
        · rw [if_neg (by simp)]
          unfold reallocMove
          rw [if_pos (by omega), ← hs]; rfl
      · obtain ⟨h₁, q, l, h', e1, hq0, hqp, hll, hlh, hf, e2, e3, ⟨hcopy, sh, r₂⟩, -⟩ := realloc_moves hA r hl hn hn2 hgrow hfit hspace
        refine ⟨h', q, e2, ?_⟩
        obtain ⟨bs, L⟩ := reach_linked hA r
        have hmbl : c.heap.mbufsize < 2 ^ 30 := by
          have := chain_total L.heap.chain
          have := L.heap.sizeLt
          have := L.heap.sizeGe
          omega
        obtain ⟨h'', e4, e5⟩ := C75_arena_free hA r₂ K (s := { s with heap := ⟨h₁.mem.write q l, h₁.mbufsize⟩ }) rfl (p := p) (n := k)
          (List.mem_cons_of_mem _ hl)
        simp only at e4
        rw [hf] at e4
        injection e4 with e4
        subst e4
        unfold reallocB
        rw [if_neg (by omega), if_neg hp0, hs, hload, Res.ok_bind, hdr_and_V_toNat hw, hdr_and_BRK hw]
        simp only
        rw [ckInt_ok (by omega) (by omega), Res.ok_bind, need_eq hn,
          show (((n + 3) / 4 + 1 : Nat) : Int) * 4 = (need n : Int) by omega,
          ckInt_ok (by omega) (by omega), Res.ok_bind, if_neg (by omega), if_neg (by simp)]
        unfold reallocMove
        rw [if_neg (by omega), hs, ckInt_ok (by omega) (by omega), Res.ok_bind, ckInt_ok (by omega) (by omega), Res.ok_bind,
          if_neg (by omega), e1, Res.ok_bind]
        simp only
        rw [hcopy, Res.ok_bind, e5]
        rfl

/-- A block of 8 bytes of the arena while the data segment is in use: grown to 30 bytes, the break stays. -/
example : ∃ c s h q, Reach exArena exHeapMem c ∧ s.kbrk = 0x105000 ∧ s.heap = c.heap ∧ realloc exArena c.heap 4340 30 = .ok (h, q) ∧
    reallocB exArena exBrkK s 4340 (30 : Nat) = .ok ({ s with heap := h }, q) := by
  obtain ⟨h1, e1, e2⟩ : ∃ h1, malloc exArena (Heap.init exArena exHeapMem) (8 : Nat) = .ok (h1, 4340) ∧ h1.mbufsize = 240 := ⟨_, rfl, rfl⟩
  have r1 := Reach.malloc_ok 8 .init (by decide) (by decide) e1 (by decide)
  obtain ⟨h, q, e3, e4⟩ := ((C75_arena_realloc_partial exArena_ok r1 exBrkK (s := ⟨h1, 0x105000, 0x100000, 0x105000, 2⟩) rfl).2 4340 8 (by simp)).2 30
    (by decide) (by decide) (.inr ⟨by decide, by decide, by simp only [e2]; decide⟩)
  exact ⟨_, _, h, q, r1, rfl, rfl, e3, e4⟩

end Minilib

import Verif.Lemmas.HeapFns
import Verif.Props.Malloc
import Verif.Props.Str
/-
Properties C22 (calloc), C23 (realloc), C13 (strdup, strndup).
-/

set_option autoImplicit false

namespace Minilib
open Mem

/-! ### C22 calloc -/

/-- C22 as stated. -/
def C22_calloc_full : Prop :=
  ∀ (A : Arena) (m₀ : Mem) (c : Client), A.Ok m₀ → Reach A m₀ c → ∀ (k n : Nat), 1 ≤ k → 1 ≤ n →
    k * n ≤ 2147483640 → ∀ h p, calloc A c.heap k n = .ok (h, p) → p ≠ 0 →
      ∀ i, i < k * n → h.mem (p + i) = some 0#8

/-- C22, exact behaviour: `calloc(k,n)` fails like `malloc(k*n)`, or returns a block of `k*n` bytes
(the program may use it like any other: the new state is again one of a history) of which exactly
the first `n` bytes have been cleared. -/
theorem C22_calloc_partial {A : Arena} {m₀ : Mem} (hA : A.Ok m₀) {c : Client} (r : Reach A m₀ c)
    {k n : Nat} (hk : 1 ≤ k) (hn : 1 ≤ n) (hs : k * n ≤ 2147483640) :
    (calloc A c.heap k n = .ok (c.heap, 0) ∧ malloc A c.heap (k * n : Nat) = .ok (c.heap, 0)) ∨
    ∃ h₁ p, malloc A c.heap (k * n : Nat) = .ok (h₁, p) ∧ p ≠ 0 ∧
      calloc A c.heap k n = .ok (⟨h₁.mem.write p (List.replicate n 0#8), h₁.mbufsize⟩, p) ∧
      ∃ s, Reach A m₀ ⟨⟨h₁.mem.write p (List.replicate n 0#8), h₁.mbufsize⟩, (p, k * n) :: c.live, s⟩ := by
  have hkn : n ≤ k * n := Nat.le_mul_of_pos_left n hk
  have e1 : (n : Int) * (k : Int) = ((k * n : Nat) : Int) := by rw [Int.mul_comm]; push_cast; rfl
  unfold calloc
  rw [e1, ckInt_ok (by omega) (by omega), Res.ok_bind]
  by_cases hr : c.heap.mbufsize < need (k * n) + 64
  · left
    have := (C20_malloc_partial hA r (n := k * n) (by omega) hs).1 hr
    rw [this]
    exact ⟨rfl, rfl⟩
  · right
    obtain ⟨h₁, p, e2, hp, _⟩ := (C20_malloc_partial hA r (n := k * n) (by omega) hs).2 (by omega)
    have r₁ := Reach.malloc_ok (k * n) r (by omega) hs e2 hp
    obtain ⟨bs, L⟩ := reach_linked hA r₁
    have hb := (C17_history hA r₁).2.2.1 p (k * n) (by simp)
    have hmp : h₁.mem.Mapped p n := by
      intro i hi
      have hmb := L.heap.mb0
      have := L.heap.mapped (p - A.base + i) (by simp only at hb hmb; omega)
      simp only at hmb hb
      rwa [show A.base + (p - A.base + i) = p + i by omega] at this
    refine ⟨h₁, p, e2, hp, ?_, ?_⟩
    · rw [e2, Res.ok_bind]
      simp only
      rw [if_neg hp, callocClear_eq hmp]
      rfl
    · have := Reach.write r₁ (p := p) (n := k * n) (by simp) 0 (List.replicate n 0#8) (by simp; omega)
      exact ⟨_, this⟩

/-- C22 holds for one element: all bytes are zero. -/
theorem C22_calloc_one_partial {A : Arena} {m₀ : Mem} (hA : A.Ok m₀) {c : Client} (r : Reach A m₀ c)
    {n : Nat} (hn : 1 ≤ n) (hs : n ≤ 2147483640) {h : Heap} {p : Nat}
    (hc : calloc A c.heap 1 n = .ok (h, p)) (hp : p ≠ 0) (i : Nat) (hi : i < n) :
    h.mem (p + i) = some 0#8 := by
  rcases C22_calloc_partial hA r (k := 1) (n := n) (by decide) hn (by simpa using hs) with
    ⟨h1, _⟩ | ⟨h₁, q, _, _, h2, _⟩
  · have h1' : calloc A c.heap 1 n = .ok (c.heap, 0) := h1
    rw [h1'] at hc
    injection hc with hc
    injection hc with _ hc
    exact absurd hc.symm hp
  · have h2' : calloc A c.heap 1 n = _ := h2
    rw [h2'] at hc
    injection hc with hc
    injection hc with hc hq
    subst hc hq
    simp only
    rw [write_inside _ _ _ _ (by simpa using hi)]
    simp

/-- C22 fails: `calloc(2,4)` clears 4 of the 8 bytes. -/
theorem C22_calloc_refuted : ¬ C22_calloc_full := by
  intro hf
  have r := Reach.scratch 248 0xff#8 (Reach.init (A := exArena) (m₀ := exHeapMem)) (by decide)
  rcases C22_calloc_partial exArena_ok r (k := 2) (n := 4) (by decide) (by decide) (by decide) with
    ⟨_, h1⟩ | ⟨h₁, p, h1, hp, h2, _⟩
  · have h3 := (C20_malloc_partial exArena_ok r (n := 8) (by decide) (by decide)).2 (by decide)
    obtain ⟨h, p, h3, hp, _⟩ := h3
    have h1' : malloc exArena _ ((8 : Nat) : Int) = _ := h1
    rw [h3] at h1'
    injection h1' with h1'
    injection h1' with _ h1'
    exact hp h1'
  · obtain ⟨h', e1, e2⟩ : ∃ h', malloc exArena
        ⟨(Heap.init exArena exHeapMem).mem.upd (exArena.base + 248) 0xff#8,
          (Heap.init exArena exHeapMem).mbufsize⟩ (2 * 4 : Nat) = .ok (h', 4340) ∧ h'.mem 4344 = some 0xff#8 :=
        ⟨_, rfl, by decide +kernel⟩
    rw [e1] at h1
    injection h1 with h1
    injection h1 with hh hq
    subst hh hq
    have := hf _ _ _ exArena_ok r 2 4 (by decide) (by decide) (by decide) _ _ h2 (by decide) 4 (by decide)
    simp only at this
    rw [write_outside _ _ _ _ (by decide), e2] at this
    revert this
    decide

/-- One element of 8 bytes on the same dirty arena is cleared. -/
example : ∃ h p, calloc exArena ⟨exHeapMem.upd 4344 0xff#8, 252⟩ (1 : Nat) (8 : Nat) = .ok (h, p) ∧ p ≠ 0 ∧
    h.mem (p + 4) = some 0#8 := by
  have r := Reach.scratch 248 0xff#8 (Reach.init (A := exArena) (m₀ := exHeapMem)) (by decide)
  rcases C22_calloc_partial exArena_ok r (k := 1) (n := 8) (by decide) (by decide) (by decide) with
    ⟨_, h1⟩ | ⟨h₁, p, h1, hp, h2, _⟩
  · obtain ⟨h, p, h3, hp, _⟩ :=
      (C20_malloc_partial exArena_ok r (n := 8) (by decide) (by decide)).2 (by decide)
    have h1' : malloc exArena _ ((8 : Nat) : Int) = _ := h1
    rw [h3] at h1'
    injection h1' with h1'
    injection h1' with _ h1'
    exact absurd h1' hp
  · exact ⟨_, p, h2, hp, C22_calloc_one_partial exArena_ok r (by decide) (by decide) h2 hp 4 (by decide)⟩

/-! ### C23 realloc -/

/-- C23 as stated: the old block is `s` bytes at `p`. -/
def C23_realloc_full : Prop :=
  ∀ (A : Arena) (m₀ : Mem) (c : Client), A.Ok m₀ → Reach A m₀ c → ∀ (p s n : Nat), (p, s) ∈ c.live →
    1 ≤ n → n ≤ 2147483630 → ∃ h q, realloc A c.heap p n = .ok (h, q) ∧
      (q = 0 → h = c.heap) ∧
      (q ≠ 0 → ∀ i, i < min s n → h.mem (q + i) = c.heap.mem (p + i))

/-- Bytes copied by `realloc` from an old block of `s` bytes: about half of it. -/
def copied (s : Nat) : Nat := 4 * ((2 * ((s + 3) / 4 + 1) - 1) / 4 + 1)

/-- What `realloc` reads first: the header of the block. -/
theorem realloc_header {A : Arena} {m₀ : Mem} (hA : A.Ok m₀) {c : Client} (r : Reach A m₀ c) {p s : Nat}
    (hl : (p, s) ∈ c.live) : p ≠ 0 ∧ (s + 3) / 4 + 1 < 2 ^ 28 ∧
      ∃ q, c.heap.mem.loadW ((p : Int) - 4) = .ok (hdr ((s + 3) / 4 + 1) false q) := by
  obtain ⟨bs, L⟩ := reach_linked hA r
  have hmem := (L.held p s hl).2
  have hs1 := (L.held p s hl).1
  have hch := L.heap.chain
  have htot := chain_total hch
  obtain ⟨xs, ⟨n, fr⟩, ys, rfl, hfr, hpe, hc⟩ := liveBlks_split hmem
  simp only at hfr hc
  subst hfr
  have hn := chain_ge2 hch ⟨n, false⟩ (by simp)
  simp only at hn
  have hn' : n = (s + 3) / 4 + 1 := by omega
  rw [chain_append] at hch
  obtain ⟨_, ⟨q, hq, _⟩, _⟩ := hch.2
  rw [total_append, total] at htot
  have hsl := L.heap.sizeLt
  have hsg := L.heap.sizeGe
  have hb0 := L.heap.base0
  simp only at hq htot
  refine ⟨by omega, by omega, q, ?_⟩
  rw [show (p : Int) - 4 = ((A.base + c.heap.mbufsize.toNat + 4 * total xs : Nat) : Int) by omega,
    loadW_eq hq, ← hn']

theorem exists_holds {m : Mem} {p n : Nat} (h : m.Mapped p n) : ∃ l, l.length = n ∧ m.Holds p l := by
  induction n generalizing p with
  | zero => exact ⟨[], rfl, holds_nil m p⟩
  | succ n ih =>
    obtain ⟨⟨b, hb⟩, h2⟩ := mapped_succ.1 h
    obtain ⟨l, hl, hh⟩ := ih h2
    exact ⟨b :: l, by simp [hl], holds_cons.2 ⟨hb, hh⟩⟩

/-- C23, exact behaviour when `realloc` moves the block and the copy fits: allocate, copy
`copied s` bytes, free the old block. -/
theorem realloc_moves {A : Arena} {m₀ : Mem} (hA : A.Ok m₀) {c : Client} (r : Reach A m₀ c) {p s n : Nat}
    (hl : (p, s) ∈ c.live) (hn : 1 ≤ n) (hn2 : n ≤ 2147483630) (hgrow : (s + 3) / 4 + 1 < need n)
    (hfit : copied s ≤ need n) (hspace : need n + 4 + 64 ≤ c.heap.mbufsize) :
    ∃ h₁ q l h', malloc A c.heap (need n) = .ok (h₁, q) ∧ q ≠ 0 ∧ q ≠ p ∧ l.length = copied s ∧
      c.heap.mem.Holds p l ∧
      free A ⟨h₁.mem.write q l, h₁.mbufsize⟩ p = .ok h' ∧ realloc A c.heap p n = .ok (h', q) ∧
      (∀ i, i < need n → h'.mem (q + i) = (h₁.mem.write q l) (q + i)) ∧
      (reallocCopy h₁.mem q p (q + (((s + 3) / 4 + 1 : Nat) : Int) * 2 - 1) = .ok (h₁.mem.write q l) ∧
        ∃ sh, Reach A m₀ ⟨⟨h₁.mem.write q l, h₁.mbufsize⟩, (q, need n) :: c.live, sh⟩) ∧
      ∃ sh, Reach A m₀ ⟨h', (q, need n) :: c.live.filter (fun b => b.1 ≠ p), sh⟩ := by
  have hne : need n = 4 * ((n + 3) / 4 + 1) := rfl
  have hcp : copied s = 4 * ((2 * ((s + 3) / 4 + 1) - 1) / 4 + 1) := rfl
  have hnn : need (need n) = need n + 4 := by simp only [need]; omega
  obtain ⟨hp0, hw, fq, hload⟩ := realloc_header hA r hl
  obtain ⟨bs, L⟩ := reach_linked hA r
  have hmbl : c.heap.mbufsize < 2 ^ 30 := by
    have := chain_total L.heap.chain
    have := L.heap.sizeLt
    have := L.heap.sizeGe
    omega
  obtain ⟨hs1, hblk⟩ := L.held p s hl
  have hge2 := chain_ge2 L.heap.chain
  have htot := chain_total L.heap.chain
  have hbd := liveBlks_bounds hblk hge2
  obtain ⟨h₁, e1, e2, e3, e4⟩ := malloc_succ L.heap (n := need n) (by omega) (by omega) (by omega)
  have hmb1 := e3.mb0
  generalize hq : A.base + h₁.mbufsize.toNat + 4 = q at *
  have hq0 : q ≠ 0 := by omega
  have r₁ := Reach.malloc_ok (need n) r (by omega) (by omega) e1 hq0
  have hqp : q ≠ p := by omega
  -- the old contents
  have hmp : c.heap.mem.Mapped p (copied s) := by
    intro i hi
    have := L.heap.mapped (p - A.base + i) (by have := L.heap.sizeGe; omega)
    rwa [show A.base + (p - A.base + i) = p + i by omega] at this
  obtain ⟨l, hll, hlh⟩ := exists_holds hmp
  have hlh1 : h₁.mem.Holds p l := by
    intro i hi
    rw [← hlh i hi]
    by_cases hx : h₁.mem (p + i) = c.heap.mem (p + i)
    · exact hx
    · have := e4 _ hx; omega
  have hmq : h₁.mem.Mapped q (copied s) := by
    intro i hi
    have htot1 := chain_total e3.chain
    simp only [total] at htot1
    have := e3.mapped (q - A.base + i) (by omega)
    rwa [show A.base + (q - A.base + i) = q + i by omega] at this
  have r₂ := Reach.write r₁ (p := q) (n := need n) (by simp) 0 l (by omega)
  rw [Nat.add_zero] at r₂
  obtain ⟨h', hf⟩ := (C17_history hA r₂).2.1 p s (List.mem_cons_of_mem _ hl)
  have r₃ := Reach.free r₂ (p := p) (n := s) (List.mem_cons_of_mem _ hl) hf
  have hfr := (C18_free hA r₂ (p := p) (n := s) (List.mem_cons_of_mem _ hl) hf).1
  have hcopy : reallocCopy h₁.mem q p (q + (((s + 3) / 4 + 1 : Nat) : Int) * 2 - 1) = .ok (h₁.mem.write q l) := by
    rw [show (q : Int) + (((s + 3) / 4 + 1 : Nat) : Int) * 2 - 1
        = ((q + 2 * ((s + 3) / 4 + 1) - 1 : Nat) : Int) by omega,
      reallocCopy_eq (k := (2 * ((s + 3) / 4 + 1) - 1) / 4 + 1) (by omega) hlh1 hmq (by omega) (by omega)
        (by omega)]
  refine ⟨h₁, q, l, h', e1, hq0, hqp, hll, hlh, hf, ?_, ?_, ⟨hcopy, _, r₂⟩, ?_⟩
  · unfold realloc
    rw [if_neg (by omega), if_neg hp0, hload, Res.ok_bind, hdr_and_V_toNat hw]
    simp only
    rw [ckInt_ok (by omega) (by omega), Res.ok_bind, need_eq hn,
      show (((n + 3) / 4 + 1 : Nat) : Int) * 4 = (need n : Int) by omega,
      ckInt_ok (by omega) (by omega), Res.ok_bind, if_neg (by omega), if_neg (by omega),
      ckInt_ok (by omega) (by omega), Res.ok_bind, ckInt_ok (by omega) (by omega), Res.ok_bind,
      if_neg (by omega), e1, Res.ok_bind]
    simp only
    rw [hcopy, Res.ok_bind, hf]
    rfl
  · intro i hi
    exact hfr q (need n) i (by simp) hqp hi
  · rw [List.filter_cons, if_pos (by simpa using hqp)] at r₃
    exact ⟨_, r₃⟩

/-- C23, growing or moving: if the copied bytes cover what must survive and fit the new block, the
call succeeds, the new block has at least `n` bytes, keeps the first `min s n` bytes, the old block
is gone, and the program can go on (the state is one of a history).  Partial: `realloc` copies only
about half of the old block, so larger blocks are not covered. -/
theorem C23_realloc_partial {A : Arena} {m₀ : Mem} (hA : A.Ok m₀) {c : Client} (r : Reach A m₀ c) {p s n : Nat}
    (hl : (p, s) ∈ c.live) (hn : 1 ≤ n) (hn2 : n ≤ 2147483630) (hgrow : (s + 3) / 4 + 1 < need n)
    (hfit : copied s ≤ need n) (hcov : min s n ≤ copied s) (hspace : need n + 4 + 64 ≤ c.heap.mbufsize) :
    ∃ h q sh, realloc A c.heap p n = .ok (h, q) ∧ q ≠ 0 ∧ n ≤ need n ∧
      (∀ i, i < min s n → h.mem (q + i) = c.heap.mem (p + i)) ∧
      Reach A m₀ ⟨h, (q, need n) :: c.live.filter (fun b => b.1 ≠ p), sh⟩ := by
  obtain ⟨h₁, q, l, h', e1, hq0, _, hll, hlh, hf, e2, e3, -, sh, r'⟩ :=
    realloc_moves hA r hl hn hn2 hgrow hfit hspace
  have hne : need n = 4 * ((n + 3) / 4 + 1) := rfl
  refine ⟨h', q, sh, e2, hq0, by omega, ?_, r'⟩
  intro i hi
  rw [e3 i (by omega), write_inside _ _ _ _ (by omega), hlh i (by omega)]

/-- C23, blocks of at most 8 bytes: `realloc` to any size that fits keeps the contents. -/
theorem C23_realloc_small_partial {A : Arena} {m₀ : Mem} (hA : A.Ok m₀) {c : Client} (r : Reach A m₀ c)
    {p s n : Nat} (hl : (p, s) ∈ c.live) (hs : s ≤ 8) (hn : 1 ≤ n) (hn2 : n ≤ 2147483630)
    (hspace : need n + 4 + 64 ≤ c.heap.mbufsize) :
    ∃ h q sh, realloc A c.heap p n = .ok (h, q) ∧ q ≠ 0 ∧ n ≤ need n ∧
      (∀ i, i < min s n → h.mem (q + i) = c.heap.mem (p + i)) ∧
      Reach A m₀ ⟨h, (q, need n) :: c.live.filter (fun b => b.1 ≠ p), sh⟩ := by
  have hne : need n = 4 * ((n + 3) / 4 + 1) := rfl
  have hcp : copied s = 4 * ((2 * ((s + 3) / 4 + 1) - 1) / 4 + 1) := rfl
  obtain ⟨bs, L⟩ := reach_linked hA r
  have := (L.held p s hl).1
  exact C23_realloc_partial hA r hl hn hn2 (by omega) (by omega) (by omega) hspace

/-- C23, shrinking to less than about a quarter: the block stays where it is, untouched. -/
theorem C23_realloc_shrink_partial {A : Arena} {m₀ : Mem} (hA : A.Ok m₀) {c : Client} (r : Reach A m₀ c)
    {p s n : Nat} (hl : (p, s) ∈ c.live) (hn : 1 ≤ n) (hn2 : n ≤ 2147483630)
    (hsm : need n ≤ (s + 3) / 4 + 1) : n ≤ s ∧ realloc A c.heap p n = .ok (c.heap, p) := by
  have hne : need n = 4 * ((n + 3) / 4 + 1) := rfl
  obtain ⟨hp0, hw, fq, hload⟩ := realloc_header hA r hl
  refine ⟨by omega, ?_⟩
  unfold realloc
  rw [if_neg (by omega), if_neg hp0, hload, Res.ok_bind, hdr_and_V_toNat hw]
  simp only
  rw [ckInt_ok (by omega) (by omega), Res.ok_bind, need_eq hn,
    show (((n + 3) / 4 + 1 : Nat) : Int) * 4 = (need n : Int) by omega,
    ckInt_ok (by omega) (by omega), Res.ok_bind]
  split
  · rfl
  · rw [if_pos (by omega)]; rfl

/-- For the example: a block of 12 bytes with a 7 at offset 8. -/
theorem exTwelve : ∃ c, Reach exArena exHeapMem c ∧ c.live = [(4336, 12)] ∧ c.heap.mbufsize = 236 ∧
    c.heap.mem (4336 + 8) = some 7#8 ∧
    ∃ h₂, malloc exArena c.heap (need 16) = .ok (h₂, 4312) ∧ h₂.mem (4312 + 8) = some 0#8 := by
  obtain ⟨h1, e1, e2, h₂, e3, e4⟩ : ∃ h1, malloc exArena (Heap.init exArena exHeapMem) (12 : Nat) = .ok (h1, 4336) ∧
    h1.mbufsize = 236 ∧ ∃ h₂, malloc exArena ⟨h1.mem.upd (4336 + 8) 7#8, h1.mbufsize⟩ (need 16)
      = .ok (h₂, 4312) ∧ h₂.mem (4312 + 8) = some 0#8 := ⟨_, rfl, rfl, _, rfl, by decide +kernel⟩
  have r1 := Reach.malloc_ok 12 .init (by decide) (by decide) e1 (by decide)
  have r2 := Reach.store 8 7#8 r1 (p := 4336) (n := 12) (by simp) (by decide)
  exact ⟨_, r2, rfl, e2, by simp, h₂, e3, e4⟩

/-- C23 fails: growing a 12 byte block to 16 bytes loses byte 8. -/
theorem C23_realloc_refuted : ¬ C23_realloc_full := by
  intro hf
  obtain ⟨c, r, hl, hmb, hb, h₂, hm₂, hz⟩ := exTwelve
  obtain ⟨h, q, e, h0, h1⟩ := hf _ _ c exArena_ok r 4336 12 16 (by simp [hl]) (by decide) (by decide)
  obtain ⟨h₁, q', l, h', e1, hq0, _, hll, hlh, hfr, e2, e3, -, sh, r'⟩ :=
    realloc_moves exArena_ok r (p := 4336) (s := 12) (n := 16) (by simp [hl]) (by decide) (by decide)
      (by decide) (by decide) (by rw [hmb]; decide)
  rw [e2] at e
  injection e with e
  injection e with eh eq
  subst eh eq
  have h2 := h1 hq0 8 (by decide)
  rw [hm₂] at e1
  injection e1 with e1
  injection e1 with ea eb
  subst ea eb
  rw [hb, e3 8 (by decide), write_outside _ _ _ _ (by rw [hll]; right; simp [copied]), hz] at h2
  revert h2
  decide

/-- C23 fails also when memory runs out: the old block is freed (its space returns to the arena)
although NULL is returned. -/
theorem C23_realloc_oom_refuted : ∃ c h, Reach exArena exHeapMem c ∧ (4336, 12) ∈ c.live ∧
    c.heap.mbufsize = 236 ∧ realloc exArena c.heap 4336 1000 = .ok (h, 0) ∧ h.mbufsize = 252 := by
  obtain ⟨h1, e1, e2, h, e3, e4⟩ : ∃ h1, malloc exArena (Heap.init exArena exHeapMem) (12 : Nat) = .ok (h1, 4336) ∧
    h1.mbufsize = 236 ∧ ∃ h, realloc exArena h1 4336 1000 = .ok (h, 0) ∧ h.mbufsize = 252 :=
    ⟨_, rfl, rfl, _, rfl, rfl⟩
  exact ⟨_, h, Reach.malloc_ok 12 .init (by decide) (by decide) e1 (by decide), by simp, e2, e3, e4⟩

/-- C23 fails in a third way: the test whether there is room counts the old block, `malloc` does not; in between the
contents are copied to NULL, here when a 12 byte block shall get 184 bytes. -/
theorem C23_realloc_null_refuted : ∃ c, Reach exArena exHeapMem c ∧ (4336, 12) ∈ c.live ∧
    realloc exArena c.heap 4336 184 = .ub := by
  obtain ⟨h1, e1, e3⟩ : ∃ h1, malloc exArena (Heap.init exArena exHeapMem) (12 : Nat) = .ok (h1, 4336) ∧
    realloc exArena h1 4336 184 = .ub := by
    refine ⟨_, rfl, ?_⟩
    have key : ∀ (m : Mem) (a l : Int) (w : BitVec 32) (f : Mem → Res (Heap × Nat)), m.loadW a = .ok w → m.storeW 0 w = .ub →
        0 ≤ l → (reallocCopy m 0 a l >>= f) = .ub := by
      intro m a l w f h1 h2 h3
      rw [reallocCopy, if_pos h3, h1, Res.ok_bind, h2]
      rfl
    exact key _ 4336 7 _ _ rfl rfl (by decide)
  exact ⟨_, Reach.malloc_ok 12 .init (by decide) (by decide) e1 (by decide), by simp, e3⟩

/-- C23 fails in a fourth way: when a block of 100 bytes shall get 24 bytes, 52 bytes are copied into a new block of
28, and the block behind it loses its contents. -/
theorem C23_realloc_overflow_refuted : ∃ c h, Reach exArena exHeapMem c ∧ (4248, 100) ∈ c.live ∧ (4224, 20) ∈ c.live ∧
    realloc exArena c.heap 4248 24 = .ok (h, 4192) ∧ c.heap.mem 4224 = some 9#8 ∧ h.mem 4224 = some 0#8 := by
  obtain ⟨h1, e1, h2, e2, h3, e3, e4⟩ : ∃ h1, malloc exArena (Heap.init exArena exHeapMem) (100 : Nat) = .ok (h1, 4248) ∧
    ∃ h2, malloc exArena h1 (20 : Nat) = .ok (h2, 4224) ∧
    ∃ h3, realloc exArena ⟨h2.mem.upd (4224 + 0) 9#8, h2.mbufsize⟩ 4248 24 = .ok (h3, 4192) ∧ h3.mem 4224 = some 0#8 := by
    refine ⟨_, rfl, _, rfl, ?_⟩
    have key : ∀ (m : Mem) (f : Mem → Res (Heap × Nat)), m.Holds 4248 (List.replicate 52 0#8) → m.Mapped 4192 52 →
        (reallocCopy m 4192 4248 4243 >>= f) = f (m.write 4192 (List.replicate 52 0#8)) := by
      intro m f g1 g2
      have := reallocCopy_eq (k := 13) (d := 4192) (s := 4248) (last := 4243) (by decide) g1 g2 (by decide) (by decide)
        (by decide)
      exact (congrArg (· >>= f) this).trans rfl
    refine ⟨_, Eq.trans (key _ _ ?_ ?_) rfl, ?_⟩
    · intro i hi
      exact Decidable.of_not_not fun h => absurd (decide_eq_true h) (by revert i; decide +kernel)
    · intro i hi
      refine Option.isSome_iff_exists.1 ?_
      revert i
      decide +kernel
    · decide +kernel
  have r1 := Reach.malloc_ok 100 .init (by decide) (by decide) e1 (by decide)
  have r2 := Reach.malloc_ok 20 r1 (by decide) (by decide) e2 (by decide)
  have r3 := Reach.store 0 9#8 r2 (p := 4224) (n := 20) (by simp) (by decide)
  exact ⟨_, h3, r3, by simp, by simp, e3, by simp, e4⟩

/-- An 8 byte block grown to 30 bytes. -/
example : ∃ c h q, Reach exArena exHeapMem c ∧ (4340, 8) ∈ c.live ∧
    realloc exArena c.heap 4340 30 = .ok (h, q) ∧ q ≠ 0 ∧ c.heap.mem (4340 + 7) = some 9#8 ∧
    h.mem (q + 7) = some 9#8 := by
  obtain ⟨h1, e1, e2⟩ : ∃ h1, malloc exArena (Heap.init exArena exHeapMem) (8 : Nat) = .ok (h1, 4340) ∧
    h1.mbufsize = 240 := ⟨_, rfl, rfl⟩
  have r1 := Reach.malloc_ok 8 .init (by decide) (by decide) e1 (by decide)
  have r2 := Reach.store 7 9#8 r1 (p := 4340) (n := 8) (by simp) (by decide)
  obtain ⟨h, q, sh, e3, hq, _, hc, _⟩ := C23_realloc_small_partial exArena_ok r2 (p := 4340) (s := 8) (n := 30)
    (by simp) (by decide) (by decide) (by decide) (by simp only [e2]; decide)
  refine ⟨_, h, q, r2, by simp, e3, hq, by simp, ?_⟩
  rw [hc 7 (by decide)]
  simp

/-- A block of 100 bytes "shrunk" to 12. -/
example : ∃ c, Reach exArena exHeapMem c ∧ (4248, 100) ∈ c.live ∧
    realloc exArena c.heap 4248 12 = .ok (c.heap, 4248) := by
  obtain ⟨h1, e1⟩ : ∃ h1, malloc exArena (Heap.init exArena exHeapMem) (100 : Nat) = .ok (h1, 4248) :=
    ⟨_, rfl⟩
  have r1 := Reach.malloc_ok 100 .init (by decide) (by decide) e1 (by decide)
  exact ⟨_, r1, by simp, (C23_realloc_shrink_partial exArena_ok r1 (p := 4248) (s := 100) (n := 12)
    (by simp) (by decide) (by decide) (by decide)).2⟩

/-! ### C13 strdup, strndup -/

/-- The string `s` at `src` lies outside the arena or inside a block the program holds. -/
def Holding (A : Arena) (c : Client) (src : Nat) (s : List Byte) : Prop :=
  c.heap.mem.IsStr src s ∧ src ≠ 0 ∧
    (src + s.length < A.base ∨ A.base + A.size ≤ src ∨
      ∃ q k, (q, k) ∈ c.live ∧ q ≤ src ∧ src + s.length < q + k)

/-- C13 as stated for `strdup`: NULL, or a block of the program of at least `strlen+1` bytes holding a copy. -/
def C13_strdup_full : Prop :=
  ∀ (A : Arena) (m₀ : Mem) (c : Client), A.Ok m₀ → Reach A m₀ c → ∀ src s, Holding A c src s →
    s.length < 2147483640 → ∃ h d, strdup A c.heap src = .ok (h, d) ∧
      (d ≠ 0 → h.mem.IsStr d s ∧ ∃ n sh, s.length + 1 ≤ n ∧ Reach A m₀ ⟨h, (d, n) :: c.live, sh⟩)

/-- C13 as stated for `strndup`. -/
def C13_strndup_full : Prop :=
  ∀ (A : Arena) (m₀ : Mem) (c : Client), A.Ok m₀ → Reach A m₀ c → ∀ src s n, Holding A c src s →
    s.length < 2147483640 → ∃ h d, strndup A c.heap src n = .ok (h, d) ∧
      (d ≠ 0 → h.mem.IsStr d (s.take n) ∧
        ∃ k sh, (s.take n).length + 1 ≤ k ∧ Reach A m₀ ⟨h, (d, k) :: c.live, sh⟩)

/-- `malloc` treats sizes with the same number of words alike. -/
theorem malloc_same_words {A : Arena} {h : Heap} {n k : Nat} (hn : 1 ≤ n) (hk : 1 ≤ k)
    (hn2 : n ≤ 2147483640) (hk2 : k ≤ 2147483640) (e : (n + 3) / 4 = (k + 3) / 4) :
    malloc A h n = malloc A h k := by
  unfold malloc
  rw [ckInt_ok (by omega) (by omega), ckInt_ok (by omega) (by omega), Res.ok_bind, Res.ok_bind]
  simp only
  rw [need_eq hn, need_eq hk, e]

/-- Allocating leaves the source string alone, and the new block does not overlap it. -/
theorem malloc_holding {A : Arena} {m₀ : Mem} (hA : A.Ok m₀) {c : Client} (r : Reach A m₀ c) {src n : Nat}
    {s : List Byte} (hh : Holding A c src s) (h1 : 1 ≤ n) (h2 : n ≤ 2147483640) {h : Heap} {p : Nat}
    (hm : malloc A c.heap n = .ok (h, p)) (hp : p ≠ 0) :
    h.mem.IsStr src s ∧ h.mem.Mapped p n ∧ (p + n ≤ src ∨ src + s.length < p) := by
  obtain ⟨hs, hs0, hloc⟩ := hh
  obtain ⟨hf1, hf2⟩ := C18_malloc hA r h1 h2 hm
  obtain ⟨_, g1, g2, g3⟩ := C17_fresh hA r h1 h2 hm hp
  obtain ⟨bs, L⟩ := reach_linked hA (Reach.malloc_ok n r h1 h2 hm hp)
  have hsame : ∀ i, i ≤ s.length → h.mem (src + i) = c.heap.mem (src + i) := by
    intro i hi
    rcases hloc with hl | hl | ⟨q, k, hqk, h3, h4⟩
    · exact hf2 _ (by omega)
    · exact hf2 _ (by omega)
    · have := hf1 q k (src - q + i) hqk (by omega)
      rwa [show q + (src - q + i) = src + i by omega] at this
  refine ⟨⟨fun i hi => ?_, ?_, hs.2.2⟩, ?_, ?_⟩
  · rw [hsame i (by omega)]; exact hs.1 i hi
  · rw [hsame _ (by omega)]; exact hs.2.1
  · intro i hi
    have := L.heap.mapped (p - A.base + i) (by omega)
    rwa [show A.base + (p - A.base + i) = p + i by omega] at this
  · rcases hloc with hl | hl | ⟨q, k, hqk, h3, h4⟩
    · right; omega
    · left; omega
    · have := g3 q k hqk; omega

/-- C13 for `strdup`, strings whose length is not a multiple of 4 (then the missing byte for the NUL
is covered by the rounding). -/
theorem C13_strdup_partial {A : Arena} {m₀ : Mem} (hA : A.Ok m₀) {c : Client} (r : Reach A m₀ c) {src : Nat}
    {s : List Byte} (hh : Holding A c src s) (hlen : s.length < 2147483640) (hmod : s.length % 4 ≠ 0) :
    ∃ h d, strdup A c.heap src = .ok (h, d) ∧
      (d = 0 → h = c.heap ∧ c.heap.mbufsize < need (s.length + 1) + 64) ∧
      (d ≠ 0 → h.mem.IsStr d s ∧ ∃ sh, Reach A m₀ ⟨h, (d, s.length + 1) :: c.live, sh⟩) := by
  unfold strdup
  rw [C01_strlen hh.1 hh.2.1 (by omega), Res.ok_bind,
    malloc_same_words (k := s.length + 1) (by omega) (by omega) (by omega) (by omega) (by omega)]
  by_cases hr : c.heap.mbufsize < need (s.length + 1) + 64
  · rw [(C20_malloc_partial hA r (n := s.length + 1) (by omega) (by omega)).1 hr, Res.ok_bind]
    simp only [if_true]
    exact ⟨c.heap, 0, rfl, fun _ => ⟨rfl, hr⟩, fun h => absurd rfl h⟩
  · obtain ⟨h, d, e, hd, _⟩ :=
      (C20_malloc_partial hA r (n := s.length + 1) (by omega) (by omega)).2 (by omega)
    obtain ⟨g1, g2, g3⟩ := malloc_holding hA r hh (by omega) (by omega) e hd
    have r₁ := Reach.malloc_ok (s.length + 1) r (by omega) (by omega) e hd
    have r₂ := Reach.write r₁ (p := d) (n := s.length + 1) (by simp) 0 (s ++ [0#8]) (by simp)
    rw [e, Res.ok_bind]
    simp only
    rw [if_neg hd, C02_strcpy g1 g2 (by intro a; omega), Res.ok_bind]
    refine ⟨_, d, rfl, fun h => absurd h hd, fun _ => ⟨?_, _, r₂⟩⟩
    exact isStr_iff.2 ⟨write_holds _ _ _, g1.2.2⟩

/-- C13 for `strndup` when the string fits into `n`. -/
theorem C13_strndup_partial {A : Arena} {m₀ : Mem} (hA : A.Ok m₀) {c : Client} (r : Reach A m₀ c)
    {src n : Nat} {s : List Byte} (hh : Holding A c src s) (hlen : s.length < 2147483640)
    (hn : s.length ≤ n) :
    ∃ h d, strndup A c.heap src n = .ok (h, d) ∧
      (d = 0 → h = c.heap ∧ c.heap.mbufsize < need (s.length + 1) + 64) ∧
      (d ≠ 0 → h.mem.IsStr d s ∧ ∃ sh, Reach A m₀ ⟨h, (d, s.length + 1) :: c.live, sh⟩) := by
  unfold strndup
  rw [C01_strlen hh.1 hh.2.1 (by omega), Res.ok_bind]
  simp only
  rw [if_neg (by omega), show ((s.length : Int) + 1) = ((s.length + 1 : Nat) : Int) by omega]
  by_cases hr : c.heap.mbufsize < need (s.length + 1) + 64
  · rw [(C20_malloc_partial hA r (n := s.length + 1) (by omega) (by omega)).1 hr, Res.ok_bind]
    simp only [if_true]
    exact ⟨c.heap, 0, rfl, fun _ => ⟨rfl, hr⟩, fun h => absurd rfl h⟩
  · obtain ⟨h, d, e, hd, _⟩ :=
      (C20_malloc_partial hA r (n := s.length + 1) (by omega) (by omega)).2 (by omega)
    obtain ⟨g1, g2, g3⟩ := malloc_holding hA r hh (by omega) (by omega) e hd
    have r₁ := Reach.malloc_ok (s.length + 1) r (by omega) (by omega) e hd
    have r₂ := Reach.write r₁ (p := d) (n := s.length + 1) (by simp) 0 (s ++ [0#8]) (by simp)
    rw [e, Res.ok_bind]
    simp only
    rw [if_neg hd, C05_stplcpy_partial g1 (by omega) g2 (by intro a; omega), Res.ok_bind]
    refine ⟨_, d, rfl, fun h => absurd h hd, fun _ => ⟨?_, _, r₂⟩⟩
    exact isStr_iff.2 ⟨write_holds _ _ _, g1.2.2⟩

/-- The example arena with the string "abcd" at 100 and "abcde" at 200. -/
def exStrMem : Mem := fun a =>
  if 4096 ≤ a ∧ a < 4352 then some 0#8
  else objects [(100, [97, 98, 99, 100, 0]), (200, [97, 98, 99, 100, 101, 0])] a

theorem exStrArena_ok : exArena.Ok exStrMem := by
  refine ⟨by decide, by decide, by decide, by decide, by decide, ?_⟩
  intro i hi
  refine ⟨0#8, if_pos ?_⟩
  simp only [exArena] at hi ⊢; omega

/-- C13 fails for "abcd": the copy needs 5 bytes, the block has 4. -/
theorem C13_strdup_refuted : ¬ C13_strdup_full := by
  intro hf
  have hstr : exStrMem.IsStr 100 [97, 98, 99, 100] := by decide
  obtain ⟨h, d, e, h1⟩ := hf _ _ _ exStrArena_ok .init 100 [97, 98, 99, 100]
    ⟨hstr, by decide, Or.inl (by decide)⟩ (by decide)
  obtain ⟨k, ek, hk1, hk2⟩ : ∃ k, malloc exArena (Heap.init exArena exStrMem) ((4 : Nat) : Int) = .ok (k, 4344) ∧
      k.mem.IsStr 100 [97, 98, 99, 100] ∧ k.mem.Mapped 4344 5 :=
    ⟨_, rfl, by decide +kernel, by decide +kernel⟩
  have hl : strlen (Heap.init exArena exStrMem).mem 100 = .ok 4 := C01_strlen hstr (by decide) (by decide)
  unfold strdup at e
  simp only at e
  rw [hl, Res.ok_bind, ek, Res.ok_bind] at e
  simp only at e
  rw [if_neg (by decide), C02_strcpy hk1 hk2 (by intro a; simp; omega), Res.ok_bind] at e
  injection e with e
  injection e with _ e
  obtain ⟨_, n, sh, hn, r⟩ := h1 (by omega)
  have := ((C17_history exStrArena_ok r).2.2.1 d n (by simp)).2.2.2
  simp [exArena] at this hn
  omega

/-- The harm done: with a live block just above, the NUL of the copy replaces the low byte of that
block's header. -/
theorem C13_strdup_overrun_refuted : ∃ c h, Reach exArena exStrMem c ∧ c.live = [(4344, 4)] ∧
    c.heap.mem 4340 = some 2#8 ∧ strdup exArena c.heap 100 = .ok (h, 4336) ∧ h.mem 4340 = some 0#8 := by
  obtain ⟨k, ek, hk1, hk2, k2, ek2, hk3, hk4⟩ :
      ∃ k, malloc exArena (Heap.init exArena exStrMem) ((4 : Nat) : Int) = .ok (k, 4344) ∧
      k.mem.IsStr 100 [97, 98, 99, 100] ∧ k.mem 4340 = some 2#8 ∧
      ∃ k2, malloc exArena k ((4 : Nat) : Int) = .ok (k2, 4336) ∧
      k2.mem.IsStr 100 [97, 98, 99, 100] ∧ k2.mem.Mapped 4336 5 :=
    ⟨_, rfl, by decide +kernel, by decide +kernel, _, rfl, by decide +kernel, by decide +kernel⟩
  have r := Reach.malloc_ok 4 .init (by decide) (by decide) ek (by decide)
  refine ⟨_, ⟨k2.mem.write 4336 [97, 98, 99, 100, 0], k2.mbufsize⟩, r, rfl, hk2, ?_, ?_⟩
  · have hl : strlen k.mem 100 = .ok 4 := C01_strlen hk1 (by decide) (by decide)
    unfold strdup
    simp only
    rw [hl, Res.ok_bind, ek2, Res.ok_bind]
    simp only
    rw [if_neg (by decide), C02_strcpy hk3 hk4 (by intro a; simp; omega), Res.ok_bind]
    simp
  · exact write_inside k2.mem 4336 [97, 98, 99, 100, 0] 4 (by decide)

/-- C13 fails for `strndup("abcde", 2)`: the result is "abc". -/
theorem C13_strndup_refuted : ¬ C13_strndup_full := by
  intro hf
  have hstr : exStrMem.IsStr 200 [97, 98, 99, 100, 101] := by decide
  obtain ⟨h, d, e, h1⟩ := hf _ _ _ exStrArena_ok .init 200 [97, 98, 99, 100, 101] 2
    ⟨hstr, by decide, Or.inl (by decide)⟩ (by decide)
  obtain ⟨k, ek, hk1, hk2⟩ : ∃ k, malloc exArena (Heap.init exArena exStrMem) (((2 : Nat) : Int) + 1) = .ok (k, 4344) ∧
      k.mem.IsStr 200 [97, 98, 99, 100, 101] ∧ k.mem.Mapped 4344 4 :=
    ⟨_, rfl, by decide +kernel, by decide +kernel⟩
  have hl : strlen (Heap.init exArena exStrMem).mem 200 = .ok 5 := C01_strlen hstr (by decide) (by decide)
  unfold strndup at e
  simp only at e
  rw [hl, Res.ok_bind] at e
  rw [if_pos (by decide), ek, Res.ok_bind] at e
  simp only at e
  rw [if_neg (by decide), C05_stplcpy_long_partial hk1 (by decide) hk2 (by intro a; simp; omega),
    Res.ok_bind] at e
  injection e with e
  injection e with e1 e2
  subst e1 e2
  have h2 := (h1 (by decide)).1.2.1
  simp only at h2
  have h3 := write_inside k.mem 4344 ([97, 98, 99, 100, 101].take (2 + 1) ++ [0#8]) 2 (by decide)
  simp at h2 h3
  rw [h2] at h3
  revert h3
  decide

/-- "abcde" has length 5. -/
example : ∃ h d, strdup exArena (Heap.init exArena exStrMem) 200 = .ok (h, d) ∧ d ≠ 0 ∧
    h.mem.IsStr d [97, 98, 99, 100, 101] := by
  obtain ⟨h, d, e, h0, h1⟩ := C13_strdup_partial exStrArena_ok .init (src := 200)
    (s := [97, 98, 99, 100, 101]) ⟨by decide, by decide, Or.inl (by decide)⟩ (by decide) (by decide)
  have hd : d ≠ 0 := fun hd => absurd (h0 hd).2 (by decide)
  exact ⟨h, d, e, hd, (h1 hd).1⟩

example : ∃ h d, strndup exArena (Heap.init exArena exStrMem) 200 7 = .ok (h, d) ∧ d ≠ 0 ∧
    h.mem.IsStr d [97, 98, 99, 100, 101] := by
  obtain ⟨h, d, e, h0, h1⟩ := C13_strndup_partial exStrArena_ok .init (src := 200) (n := 7)
    (s := [97, 98, 99, 100, 101]) ⟨by decide, by decide, Or.inl (by decide)⟩ (by decide) (by decide)
  have hd : d ≠ 0 := fun hd => absurd (h0 hd).2 (by decide)
  exact ⟨h, d, e, hd, (h1 hd).1⟩

/-- C23: a block of 8 bytes grown to 30, by the general theorem. -/
example : ∃ c h q, Reach exArena exHeapMem c ∧ realloc exArena c.heap 4340 30 = .ok (h, q) ∧ h.mem (q + 7) = some 9#8 := by
  obtain ⟨h1, e1, e2⟩ : ∃ h1, malloc exArena (Heap.init exArena exHeapMem) (8 : Nat) = .ok (h1, 4340) ∧
    h1.mbufsize = 240 := ⟨_, rfl, rfl⟩
  have r1 := Reach.malloc_ok 8 .init (by decide) (by decide) e1 (by decide)
  have r2 := Reach.store 7 9#8 r1 (p := 4340) (n := 8) (by simp) (by decide)
  obtain ⟨h, q, sh, e3, hq, _, hc, _⟩ := C23_realloc_partial exArena_ok r2 (p := 4340) (s := 8) (n := 30)
    (by simp) (by decide) (by decide) (by decide) (by decide) (by decide) (by simp only [e2]; decide)
  refine ⟨_, h, q, r2, e3, ?_⟩
  rw [hc 7 (by decide)]
  simp

/-! ### NULL and 0 -/

/-- C23: `realloc(NULL, n)` gives a block of `n` bytes that is held from then on, when there is room for one. -/
theorem C23_realloc_from_null {A : Arena} {m₀ : Mem} (hA : A.Ok m₀) {c : Client} (r : Reach A m₀ c) {n : Nat} (h1 : 1 ≤ n) (h2 : n ≤ 2147483640)
    (hroom : need n + 64 ≤ c.heap.mbufsize) :
    ∃ h q, realloc A c.heap 0 n = .ok (h, q) ∧ q ≠ 0 ∧ Reach A m₀ ⟨h, (q, n) :: c.live, forget c.shadow q n⟩ := by
  obtain ⟨h, q, e, hq, -⟩ := (C20_malloc_partial hA r h1 h2).2 hroom
  refine ⟨h, q, ?_, hq, .malloc_ok n r h1 h2 e hq⟩
  unfold realloc
  rw [if_neg (by omega), if_pos rfl, e]

/-- C23: `realloc(p, 0)` releases the block: NULL is answered, and every other block keeps its contents. -/
theorem C23_realloc_to_zero {A : Arena} {m₀ : Mem} (hA : A.Ok m₀) {c : Client} (r : Reach A m₀ c) {p s : Nat} (hl : (p, s) ∈ c.live) :
    ∃ h, realloc A c.heap p 0 = .ok (h, 0) ∧ Reach A m₀ ⟨h, c.live.filter (fun b => b.1 ≠ p), c.shadow⟩ ∧
      ∀ q k i, (q, k) ∈ c.live → q ≠ p → i < k → h.mem (q + i) = c.heap.mem (q + i) := by
  obtain ⟨h, e⟩ := (C17_history hA r).2.1 p s hl
  refine ⟨h, ?_, .free r hl e, (C18_free hA r hl e).1⟩
  unfold realloc
  rw [if_pos rfl, e]
  rfl

/-- 12 bytes from NULL, and released with size 0. -/
example : ∃ h q h', realloc exArena (Heap.init exArena exHeapMem) 0 12 = .ok (h, q) ∧ q ≠ 0 ∧ realloc exArena h q 0 = .ok (h', 0) ∧
    h'.mbufsize = (Heap.init exArena exHeapMem).mbufsize := by
  obtain ⟨h, q, e, hq, r⟩ := C23_realloc_from_null exArena_ok .init (n := 12) (by decide) (by decide) (by decide)
  obtain ⟨h', e', r', -⟩ := C23_realloc_to_zero exArena_ok r (p := q) (s := 12) (by simp)
  refine ⟨h, q, h', e, hq, e', ?_⟩
  exact (C19_all_freed exArena_ok r' (by simp)).1

end Minilib

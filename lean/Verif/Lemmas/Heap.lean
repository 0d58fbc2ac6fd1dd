import Verif.Lemmas.Malloc
import Verif.Spec.Heap
/-
The history invariant.
-/

set_option autoImplicit false

namespace Minilib
open Mem

theorem need_eq {n : Nat} (h1 : 1 ≤ n) : ((n : Int) - 1) / 4 + 2 = ((n + 3) / 4 + 1 : Nat) := by omega

theorem malloc_fail {A : Arena} {h : Heap} {n : Nat} (h1 : 1 ≤ n) (h2 : n ≤ 2147483640)
    (hmb : 0 ≤ h.mbufsize) (hmb2 : h.mbufsize < 2 ^ 30) (hr : h.mbufsize - need n < 64) :
    malloc A h n = .ok (h, 0) := by
  unfold need at hr
  unfold malloc
  rw [ckInt_ok (by omega) (by omega), Res.ok_bind]
  simp only
  rw [need_eq h1, ckInt_ok (by omega) (by omega), Res.ok_bind, ckInt_ok (by omega) (by omega),
    Res.ok_bind, if_pos (by omega)]
  rfl

theorem and_V_and_FREE (w : BitVec 32) : (w &&& MBUF_V) &&& MBUF_FREE = 0#32 := by
  rw [BitVec.and_assoc]; simp [MBUF_V, MBUF_FREE]

theorem chain_clear {m : Mem} {bs : List Blk} {a e : Nat} (h : Chain m a none bs e)
    (hs : total bs < 2 ^ 28) :
    ∃ w, m.HasW a w ∧ Chain (m.write a (wordBytes (w &&& MBUF_V))) a (some false) bs e := by
  cases bs with
  | nil =>
    obtain ⟨rfl, w, hw, _⟩ := h
    exact ⟨w, hw, rfl, _, hasW_write_same _ _ _, .inr (and_V_and_FREE w)⟩
  | cons b bs =>
    obtain ⟨bn, bfr⟩ := b
    obtain ⟨h1, ⟨q, h2, _⟩, h3, h4⟩ := h
    simp only [total] at h1 h2 h3 h4 hs
    cases bfr with
    | true => have := (h3 rfl).2; simp at this
    | false =>
      refine ⟨_, h2, h1, ⟨false, ?_, by simp⟩, by simp, ?_⟩
      · rw [hdr_and_V (by omega), hdr_plain]
        exact hasW_write_same _ _ _
      · apply chain_congr h4
        intro x hx
        have := book_ge hx
        rw [write_outside _ _ _ _ (by simp; omega)]

theorem malloc_succ {A : Arena} {h : Heap} {bs : List Blk} (ok : HeapOk A h bs) {n : Nat} (h1 : 1 ≤ n)
    (h2 : n ≤ 2147483640) (hr : 64 ≤ h.mbufsize - need n) :
    ∃ h', malloc A h n = .ok (h', A.base + h'.mbufsize.toNat + 4) ∧ h'.mbufsize = h.mbufsize - need n ∧
      HeapOk A h' (⟨(n + 3) / 4 + 1, false⟩ :: bs) ∧
      (∀ x, h'.mem x ≠ h.mem x →
        (A.base + h'.mbufsize.toNat ≤ x ∧ x < A.base + h'.mbufsize.toNat + 4) ∨
        (A.base + h.mbufsize.toNat ≤ x ∧ x < A.base + h.mbufsize.toNat + 4)) := by
  obtain ⟨mem, mb⟩ := h
  have hb4 := ok.base4
  have hb0 := ok.base0
  have hs4 := ok.size4
  have hsl := ok.sizeLt
  have hsg := ok.sizeGe
  have hmb0 := ok.mb0
  have hmb4 := ok.mb4
  have hmap := ok.mapped
  have hch := ok.chain
  simp only at hmb0 hmb4 hmap hch hr ⊢
  obtain ⟨k, rfl⟩ : ∃ k : Nat, mb = 4 * (k : Int) := ⟨(mb / 4).toNat, by omega⟩
  rw [show ((4 * (k : Int)).toNat) = 4 * k by omega] at *
  have htot := chain_total hch
  unfold need at *
  generalize hw : (n + 3) / 4 + 1 = w at *
  have hw2 : 2 ≤ w := by omega
  obtain ⟨j, rfl⟩ : ∃ j, k = j + w := ⟨k - w, by omega⟩
  unfold malloc
  rw [ckInt_ok (by omega) (by omega), Res.ok_bind]
  simp only
  rw [need_eq h1, hw, ckInt_ok (by omega) (by omega), Res.ok_bind, ckInt_ok (by omega) (by omega),
    Res.ok_bind, if_neg (by omega)]
  rw [show A.word (4 * ((j + w : Nat) : Int)) = ((A.base + 4 * (j + w) : Nat) : Int) by
      unfold Arena.word; omega,
    show A.word (4 * ((j + w : Nat) : Int) - (w : Int) * 4) = ((A.base + 4 * j : Nat) : Int) by
      unfold Arena.word; omega]
  have hmj : ∀ w', (mem.write (A.base + 4 * (j + w)) (wordBytes w')).Mapped (A.base + 4 * j) 4 := by
    intro w'
    apply Mapped.write
    intro t ht
    have := hmap (4 * j + t) (by omega)
    rwa [← Nat.add_assoc] at this
  obtain ⟨w0, hw0, hcc⟩ := chain_clear hch (by omega)
  rw [loadW_eq hw0, Res.ok_bind, storeW_eq _ hw0.mapped, Res.ok_bind, storeW_eq _ (hmj _), Res.ok_bind]
  have e1 : (4 * ((j + w : Nat) : Int) - (w : Int) * 4) = ((4 * j : Nat) : Int) := by omega
  rw [e1]
  refine ⟨⟨(mem.write (A.base + 4 * (j + w)) (wordBytes (w0 &&& MBUF_V))).write (A.base + 4 * j)
    (wordBytes (BitVec.ofInt 32 (w : Int))), ((4 * j : Nat) : Int)⟩, ?_, by simp only; omega, ?_, ?_⟩
  rotate_left
  · refine ⟨hb4, hb0, hs4, hsl, hsg, by simp only; omega, by simp only; omega,
      (hmap.write _ _).write _ _, ?_, fun _ => by simp only; omega⟩
    simp only [Int.toNat_natCast]
    refine ⟨hw2, ⟨false, ?_, by simp⟩, by simp, ?_⟩
    · rw [hdr_plain]
      have : BitVec.ofInt 32 ((w : Nat) : Int) = BitVec.ofNat 32 w := by simp
      rw [← this]
      exact hasW_write_same _ _ _
    · simp only
      rw [show A.base + 4 * j + 4 * w = A.base + 4 * (j + w) by omega]
      apply chain_congr hcc
      intro x hx
      have := book_ge hx
      rw [write_outside _ _ _ _ (by simp; omega)]
  · intro x hx
    simp only [Int.toNat_natCast] at hx ⊢
    by_cases hA : A.base + 4 * j ≤ x ∧ x < A.base + 4 * j + 4
    · exact Or.inl hA
    · by_cases hB : A.base + 4 * (j + w) ≤ x ∧ x < A.base + 4 * (j + w) + 4
      · exact Or.inr hB
      · rw [write_outside _ _ _ _ (by simp; omega), write_outside _ _ _ _ (by simp; omega)] at hx
        exact absurd rfl hx
  · show Res.ok (_, _) = _
    simp only [Int.toNat_natCast]
    congr 2

/-! ### The invariant of a history -/

/-- There is a header between two blocks. -/
theorem liveBlks_disjoint_hdr {bs : List Blk} {a q c q' c' n n' : Nat} (h2 : ∀ b ∈ bs, 2 ≤ b.n)
    (h : (q, c) ∈ liveBlks a bs) (h' : (q', c') ∈ liveBlks a bs) (hne : q ≠ q') (hn : n ≤ c)
    (hn' : n' ≤ c') : q + n + 4 ≤ q' ∨ q' + n' + 4 ≤ q := by
  suffices q + c + 4 ≤ q' ∨ q' + c' + 4 ≤ q by omega
  clear hn hn'
  induction bs generalizing a with
  | nil => simp [liveBlks] at h
  | cons b bs ih =>
    have hb := h2 b (by simp)
    have h2' : ∀ b ∈ bs, 2 ≤ b.n := fun b hb => h2 b (by simp [hb])
    rw [liveBlks, List.mem_append] at h h'
    split at h
    · simp only [List.not_mem_nil, false_or] at h
      rename_i hf
      simp only [hf, if_true, List.not_mem_nil, false_or] at h'
      exact ih h2' h h'
    · rename_i hf
      rw [if_neg hf] at h'
      simp only [List.mem_singleton, Prod.mk.injEq] at h h'
      rcases h with h | h <;> rcases h' with h' | h'
      · omega
      · have := (liveBlks_bounds h' h2').1; omega
      · have := (liveBlks_bounds h h2').1; omega
      · exact ih h2' h h'

theorem liveBlks_aligned {bs : List Blk} {a q c : Nat} (h : (q, c) ∈ liveBlks a bs) (ha : a % 4 = 0) :
    q % 4 = 0 ∧ c % 4 = 0 := by
  obtain ⟨xs, b, ys, -, -, h1, h2⟩ := liveBlks_split h
  omega

/-- The link between the program's view and the block list. -/
structure Linked (A : Arena) (c : Client) (bs : List Blk) : Prop where
  heap : HeapOk A c.heap bs
  held : ∀ p n, (p, n) ∈ c.live →
    1 ≤ n ∧ (p, 4 * ((n + 3) / 4)) ∈ liveBlks (A.base + c.heap.mbufsize.toNat) bs
  used : ∀ y, y ∈ liveBlks (A.base + c.heap.mbufsize.toNat) bs → ∃ n, (y.1, n) ∈ c.live
  nodup : (c.live.map (·.1)).Nodup
  shadow : ∀ p n i b, (p, n) ∈ c.live → i < n → c.shadow (p + i) = some b →
    c.heap.mem (p + i) = some b

theorem HeapOk.upd {A : Arena} {h : Heap} {bs : List Blk} (ok : HeapOk A h bs) {x : Nat} (b : Byte)
    (hx : ¬ Book (A.base + h.mbufsize.toNat) bs x) : HeapOk A ⟨h.mem.upd x b, h.mbufsize⟩ bs := by
  refine ⟨ok.base4, ok.base0, ok.size4, ok.sizeLt, ok.sizeGe, ok.mb0, ok.mb4, ok.mapped.upd x b, ?_,
    ok.reserve⟩
  apply chain_congr ok.chain
  intro y hy
  exact upd_ne (by rintro rfl; exact hx hy)

theorem book_lt {bs : List Blk} {a x : Nat} (h : Book a bs x) (h2 : ∀ b ∈ bs, 2 ≤ b.n) :
    x < a + 4 * total bs + 4 := by
  induction bs generalizing a with
  | nil => simp only [total]; exact h.2
  | cons b bs ih =>
    have hb := h2 b (by simp)
    simp only [total]
    rcases h with h | h | h
    · omega
    · omega
    · have := ih h (fun b hb => h2 b (by simp [hb])); omega

theorem reach_linked {A : Arena} {m₀ : Mem} (hA : A.Ok m₀) {c : Client} (r : Reach A m₀ c) :
    ∃ bs, Linked A c bs := by
  induction r with
  | init =>
    refine ⟨[], ⟨hA.base4, hA.base0, hA.size4, hA.sizeLt, hA.sizeGe, ?_, ?_, hA.mapped, ?_, by simp⟩,
      by simp, by simp [liveBlks], by simp, by simp⟩
    · have := hA.sizeGe; simp only [Heap.init]; omega
    · have := hA.size4; simp only [Heap.init]; omega
    · have := hA.sizeGe
      simp only [Heap.init]
      rw [show A.base + ((A.size : Int) - 4).toNat = A.base + A.size - 4 by omega]
      obtain ⟨w, hw⟩ := mapped_hasW (m := m₀) (a := A.base + A.size - 4) (fun j hj => by
        have := hA.mapped (A.size - 4 + j) (by omega)
        rwa [show A.base + (A.size - 4 + j) = A.base + A.size - 4 + j by omega] at this)
      exact ⟨rfl, w, hw, .inl rfl⟩
  | @malloc_ok c h p n _ h1 h2 hm hp ih =>
    obtain ⟨bs, L⟩ := ih
    have hmb := L.heap.mb0
    have htot := chain_total L.heap.chain
    have hge2 := chain_ge2 L.heap.chain
    have hsz := L.heap.sizeLt
    have hsg := L.heap.sizeGe
    by_cases hr : c.heap.mbufsize - need n < 64
    · rw [malloc_fail h1 h2 hmb (by omega) hr] at hm
      injection hm with hm
      injection hm with _ hm
      exact absurd hm.symm hp
    · obtain ⟨h', e1, e2, e3, e4⟩ := malloc_succ L.heap h1 h2 (by omega)
      rw [e1] at hm
      injection hm with hm
      injection hm with hm hm2
      subst hm
      have e3m := e3.mb0
      have hneed : need n = 4 * ((n + 3) / 4 + 1) := rfl
      have hadd : A.base + c.heap.mbufsize.toNat = A.base + h'.mbufsize.toNat + 4 * ((n + 3) / 4 + 1) := by
        omega
      have hlb : liveBlks (A.base + h'.mbufsize.toNat) (⟨(n + 3) / 4 + 1, false⟩ :: bs)
          = (p, 4 * ((n + 3) / 4)) :: liveBlks (A.base + c.heap.mbufsize.toNat) bs := by
        rw [liveBlks, hadd]
        simp [← hm2]
      refine ⟨_, e3, ?_, ?_, ?_, ?_⟩
      · intro q k hq
        rcases List.mem_cons.1 hq with hq | hq
        · injection hq with hq1 hq2
          subst hq1 hq2
          exact ⟨h1, by rw [hlb]; simp⟩
        · refine ⟨(L.held q k hq).1, ?_⟩
          rw [hlb]
          exact List.mem_cons_of_mem _ (L.held q k hq).2
      · intro y hy
        rw [hlb] at hy
        rcases List.mem_cons.1 hy with rfl | hy
        · exact ⟨n, by simp⟩
        · obtain ⟨k, hk⟩ := L.used y hy
          exact ⟨k, List.mem_cons_of_mem _ hk⟩
      · simp only [List.map_cons, List.nodup_cons]
        refine ⟨?_, L.nodup⟩
        intro hmem
        obtain ⟨⟨q, k⟩, hq, hqe⟩ := List.mem_map.1 hmem
        have := (liveBlks_bounds (L.held q k hq).2 hge2).1
        simp only at hqe
        omega
      · intro q k i b hq hi hs
        rcases List.mem_cons.1 hq with hq | hq
        · injection hq with hq1 hq2
          subst hq1 hq2
          simp [forget, hi] at hs
        · have hb := liveBlks_bounds (L.held q k hq).2 hge2
          simp only [forget] at hs
          rw [if_neg (by omega)] at hs
          rw [← L.shadow q k i b hq hi hs]
          by_cases hx : h'.mem (q + i) = c.heap.mem (q + i)
          · exact hx
          · have := e4 _ hx
            omega
  | @malloc_fail c h n _ h1 h2 hm ih =>
    obtain ⟨bs, L⟩ := ih
    have hmb := L.heap.mb0
    have htot := chain_total L.heap.chain
    have hsz := L.heap.sizeLt
    have hsg := L.heap.sizeGe
    have hb0 := L.heap.base0
    by_cases hr : c.heap.mbufsize - need n < 64
    · rw [malloc_fail h1 h2 hmb (by omega) hr] at hm
      injection hm with hm
      injection hm with hm _
      subst hm
      exact ⟨bs, L.heap, L.held, L.used, L.nodup, L.shadow⟩
    · obtain ⟨h', e1, e2, e3, e4⟩ := malloc_succ L.heap h1 h2 (by omega)
      rw [e1] at hm
      injection hm with hm
      injection hm with hm hm2
      omega
  | @free c h p n _ hl hf ih =>
    obtain ⟨bs, L⟩ := ih
    have hge2 := chain_ge2 L.heap.chain
    obtain ⟨h', bs', e1, e2, e3, e4, e5, e6⟩ := free_spec L.heap (L.held p n hl).2
    rw [e1] at hf
    injection hf with hf
    subst hf
    refine ⟨bs', e2, ?_, ?_, ?_, ?_⟩
    · intro q k hq
      rw [List.mem_filter] at hq
      refine ⟨(L.held q k hq.1).1, (e4 _).2 ⟨(L.held q k hq.1).2, by simpa using hq.2⟩⟩
    · intro y hy
      obtain ⟨h1, h2⟩ := (e4 y).1 hy
      obtain ⟨k, hk⟩ := L.used y h1
      exact ⟨k, by rw [List.mem_filter]; exact ⟨hk, by simpa using h2⟩⟩
    · exact (List.Sublist.map _ List.filter_sublist).nodup L.nodup
    · intro q k i b hq hi hs
      rw [List.mem_filter] at hq
      rw [← L.shadow q k i b hq.1 hi hs]
      exact e6 q _ _ (L.held q k hq.1).2 (by simpa using hq.2) (by omega) (by omega)
  | @store c p n i b _ hl hi ih =>
    obtain ⟨bs, L⟩ := ih
    have hge2 := chain_ge2 L.heap.chain
    refine ⟨bs, L.heap.upd b (book_live (L.held p n hl).2 hge2 (by omega)), L.held, L.used, L.nodup, ?_⟩
    intro q k j b' hq hj hs
    simp only [Mem.upd] at hs ⊢
    split
    · rename_i he
      rw [if_pos he] at hs; exact hs
    · rename_i he
      rw [if_neg he] at hs; exact L.shadow q k j b' hq hj hs
  | @outside c x b _ hx ih =>
    obtain ⟨bs, L⟩ := ih
    have hge2 := chain_ge2 L.heap.chain
    have htot := chain_total L.heap.chain
    have hsg := L.heap.sizeGe
    refine ⟨bs, L.heap.upd b ?_, L.held, L.used, L.nodup, ?_⟩
    · intro hb
      have h1 := book_ge hb
      have h2 := book_lt hb hge2
      omega
    · intro q k j b' hq hj hs
      have := liveBlks_bounds (L.held q k hq).2 hge2
      simp only
      rw [upd_ne (by omega)]
      exact L.shadow q k j b' hq hj hs
  | @scratch c i b _ hx ih =>
    obtain ⟨bs, L⟩ := ih
    have hge2 := chain_ge2 L.heap.chain
    have hmb := L.heap.mb0
    refine ⟨bs, L.heap.upd b ?_, L.held, L.used, L.nodup, ?_⟩
    · intro hb
      have h1 := book_ge hb
      omega
    · intro q k j b' hq hj hs
      have := liveBlks_bounds (L.held q k hq).2 hge2
      simp only
      rw [upd_ne (by omega)]
      exact L.shadow q k j b' hq hj hs

theorem linked_nil {A : Arena} {c : Client} {bs : List Blk} (L : Linked A c bs) (hl : c.live = []) :
    bs = [] := by
  cases bs with
  | nil => rfl
  | cons b bs =>
    have hc := L.heap.chain
    obtain ⟨_, _, h3, _⟩ := hc
    cases hfr : b.fr with
    | true => have := (h3 hfr).2; simp at this
    | false =>
      obtain ⟨n, hn⟩ := L.used (A.base + c.heap.mbufsize.toNat + 4, 4 * (b.n - 1)) (by
        rw [liveBlks, hfr]; simp)
      rw [hl] at hn; simp at hn

theorem mallocs_same {A : Arena} {h k : Heap} {bs cs : List Blk} {ns : List Nat}
    (hns : ∀ n ∈ ns, 1 ≤ n ∧ n ≤ 2147483640) (oh : HeapOk A h bs) (ok : HeapOk A k cs)
    (he : h.mbufsize = k.mbufsize) :
    ∃ h' k' ps, mallocs A h ns = .ok (h', ps) ∧ mallocs A k ns = .ok (k', ps) := by
  induction ns generalizing h k bs cs with
  | nil => exact ⟨h, k, [], rfl, rfl⟩
  | cons n ns ih =>
    obtain ⟨h1, h2⟩ := hns n (by simp)
    have hns' : ∀ n ∈ ns, 1 ≤ n ∧ n ≤ 2147483640 := fun n hn => hns n (by simp [hn])
    have htot := chain_total oh.chain
    have hsz := oh.sizeLt
    have hsg := oh.sizeGe
    have hmb := oh.mb0
    by_cases hr : h.mbufsize - need n < 64
    · obtain ⟨h', k', ps, e1, e2⟩ := ih hns' oh ok he
      refine ⟨h', k', 0 :: ps, ?_, ?_⟩
      · rw [mallocs, malloc_fail h1 h2 hmb (by omega) hr, Res.ok_bind]; simp [e1]
      · rw [mallocs, malloc_fail h1 h2 (by omega) (by omega) (by omega), Res.ok_bind]; simp [e2]
    · obtain ⟨h1', a1, a2, a3, _⟩ := malloc_succ oh h1 h2 (by omega)
      obtain ⟨k1', b1, b2, b3, _⟩ := malloc_succ ok h1 h2 (by omega)
      have he' : h1'.mbufsize = k1'.mbufsize := by omega
      obtain ⟨h', k', ps, e1, e2⟩ := ih hns' a3 b3 he'
      refine ⟨h', k', (A.base + h1'.mbufsize.toNat + 4) :: ps, ?_, ?_⟩
      · rw [mallocs, a1, Res.ok_bind]; simp [e1]
      · rw [mallocs, b1, Res.ok_bind]; simp [e2, he']

theorem perm_filter_fst {l : List (Nat × Nat)} {p : Nat} {ps : List Nat}
    (hp : (p :: ps).Perm (l.map (·.1))) (hn : (l.map (·.1)).Nodup) :
    ps.Perm ((l.filter (fun b => b.1 ≠ p)).map (·.1)) := by
  have h1 := hp.filter (fun x => decide (x ≠ p))
  have hnd := hp.symm.nodup hn
  rw [List.filter_cons, if_neg (by simp), List.filter_map] at h1
  rw [List.filter_eq_self.2 (by
    intro x hx
    have := (List.nodup_cons.1 hnd).1
    simp only [decide_eq_true_eq]
    rintro rfl; exact this hx)] at h1
  exact h1

theorem malloc_zero {A : Arena} {c : Client} {bs : List Blk} (L : Linked A c bs) :
    malloc A c.heap 0 = .ok (c.heap, 0) ∨
    ∃ h p h', malloc A c.heap 0 = .ok (h, p) ∧ p % 4 = 0 ∧ A.base + 64 < p ∧ free A h p = .ok h' ∧
      h'.mbufsize = c.heap.mbufsize ∧
      (∀ q k i, (q, k) ∈ c.live → i < k → h'.mem (q + i) = c.heap.mem (q + i)) := by
  obtain ⟨⟨mem, mb⟩, live, sh⟩ := c
  have ok := L.heap
  have hge2 := chain_ge2 ok.chain
  have hb4 := ok.base4
  have hb0 := ok.base0
  have hs4 := ok.size4
  have hsl := ok.sizeLt
  have hsg := ok.sizeGe
  have hmb0 := ok.mb0
  have hmb4 := ok.mb4
  have hmap := ok.mapped
  have hch := ok.chain
  have hheld := L.held
  simp only at hmb0 hmb4 hmap hch hheld ⊢
  obtain ⟨k, rfl⟩ : ∃ k : Nat, mb = 4 * (k : Int) := ⟨(mb / 4).toNat, by omega⟩
  rw [show ((4 * (k : Int)).toNat) = 4 * k by omega] at *
  have htot := chain_total hch
  obtain ⟨w0, hw0, hcc⟩ := chain_clear hch (by omega)
  unfold malloc
  rw [ckInt_ok (by omega) (by omega), Res.ok_bind]
  simp only [show ((0 : Int) - 1) / 4 + 2 = 1 by decide]
  rw [ckInt_ok (by omega) (by omega), Res.ok_bind, ckInt_ok (by omega) (by omega), Res.ok_bind]
  by_cases hr : 4 * (k : Int) - 1 * 4 < 64
  · rw [if_pos hr]; exact Or.inl rfl
  · rw [if_neg hr]
    obtain ⟨j, rfl⟩ : ∃ j, k = j + 1 := ⟨k - 1, by omega⟩
    rw [show A.word (4 * ((j + 1 : Nat) : Int)) = ((A.base + 4 * (j + 1) : Nat) : Int) by
        unfold Arena.word; omega,
      show 4 * ((j + 1 : Nat) : Int) - 1 * 4 = ((4 * j : Nat) : Int) by omega,
      show A.word ((4 * j : Nat) : Int) = ((A.base + 4 * j : Nat) : Int) by unfold Arena.word; omega]
    have hmj : (mem.write (A.base + 4 * (j + 1)) (wordBytes (w0 &&& MBUF_V))).Mapped (A.base + 4 * j) 4 := by
      apply Mapped.write
      intro t ht
      have := hmap (4 * j + t) (by omega)
      rwa [← Nat.add_assoc] at this
    rw [loadW_eq hw0, Res.ok_bind, storeW_eq _ hw0.mapped, Res.ok_bind, storeW_eq _ hmj, Res.ok_bind]
    right
    generalize hm2 : (mem.write (A.base + 4 * (j + 1)) (wordBytes (w0 &&& MBUF_V))).write (A.base + 4 * j)
          (wordBytes (BitVec.ofInt 32 1)) = m2
    refine ⟨⟨m2, ((4 * j : Nat) : Int)⟩, A.base + 4 * j + 4, ⟨m2, ((4 * (j + 1) : Nat) : Int)⟩, ?_, by omega, by omega, ?_, by
      simp only; omega, ?_⟩
    · rfl
    · subst hm2
      unfold free
      rw [if_neg (by omega)]
      simp only
      rw [if_pos (by omega),
        show ((A.base + 4 * j + 4 : Nat) : Int) - 4 = ((A.base + 4 * j : Nat) : Int) by omega,
        loadW_eq (hasW_write_same _ _ _), Res.ok_bind,
        show ((BitVec.ofInt 32 1 &&& MBUF_V).toNat : Int) = 1 by decide,
        show ((4 * j : Nat) : Int) + 4 * 1 = ((4 * (j + 1) : Nat) : Int) by omega,
        if_neg (by omega),
        show A.word ((4 * (j + 1) : Nat) : Int) = ((A.base + 4 * (j + 1) : Nat) : Int) by
          unfold Arena.word; omega]
      have h1 : ((mem.write (A.base + 4 * (j + 1)) (wordBytes (w0 &&& MBUF_V))).write (A.base + 4 * j)
          (wordBytes (BitVec.ofInt 32 1))).HasW (A.base + 4 * (j + 1)) (w0 &&& MBUF_V) :=
        HasW.write (hasW_write_same _ _ _) (by left; simp; omega)
      rw [loadW_eq h1, Res.ok_bind, if_neg (by simp [and_V_and_FREE])]
      rfl
    · intro q n i hq hi
      have hb := liveBlks_bounds (hheld q n hq).2 hge2
      subst hm2
      simp only
      rw [write_outside _ _ _ _ (by simp; omega), write_outside _ _ _ _ (by simp; omega)]

/-- Writing a list of bytes into a block the program holds. -/
theorem Reach.write {A : Arena} {m₀ : Mem} {h : Heap} {live : List (Nat × Nat)} {s : Mem} {p n : Nat}
    (r : Reach A m₀ ⟨h, live, s⟩) (hl : (p, n) ∈ live) (k : Nat) (l : List Byte) (hk : k + l.length ≤ n) :
    Reach A m₀ ⟨⟨h.mem.write (p + k) l, h.mbufsize⟩, live, s.write (p + k) l⟩ := by
  induction l generalizing h s k with
  | nil => simpa using r
  | cons b l ih =>
    rw [write_cons, write_cons]
    have := Reach.store k b r hl (by simp at hk; omega)
    simp only at this
    have := ih this (k + 1) (by simp at hk; omega)
    simpa [Nat.add_assoc] using this

end Minilib

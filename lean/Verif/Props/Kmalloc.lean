import Verif.Lemmas.Kmalloc
import Verif.Props.MemFn
import Verif.Props.HeapFns
/-
C84: kmalloc.
-/

set_option autoImplicit false

namespace Minilib
open Mem

/-- C84, after every history: each block held is mapped and lies in the data segment, is aligned to 8 bytes, and to 16 unless it has 0 bytes; blocks are
disjoint; each keeps what has been stored in it.  (Missing: a kernel that refuses memory, and negative sizes.) -/
theorem C84_history_partial {K : BrkK} (hK : K.Ok) {h₀ : Heap} {c : KClient} (r : KReach K h₀ c) :
    (∀ p n, (p, n) ∈ c.live → p ≠ 0 ∧ p % 8 = 0 ∧ (1 ≤ n → p % 16 = 0) ∧ K.start ≤ p ∧ p + n ≤ c.st.b.kbrk ∧ c.st.mem.Mapped p n ∧
      ∀ i, i < n → ∀ b, c.shadow (p + i) = some b → c.st.mem (p + i) = some b) ∧
    c.live.Pairwise (fun x y => x.1 + x.2 ≤ y.1 ∨ y.1 + y.2 ≤ x.1) ∧ (c.live.map (·.1)).Nodup := by
  obtain ⟨fl, lv, L⟩ := kreach_linked hK r
  refine ⟨?_, ?_, ?_⟩
  · intro p n h
    obtain ⟨x, k, rfl, hx⟩ := live_mem L.live h
    obtain ⟨o1, o2, o3, o4, o5⟩ := L.inv.own x k (.inr ⟨n, hx⟩)
    have hu := (L.inv.used x k n hx).2.2
    have hu1 := hu.1
    have hup := le_pageUp c.st.b.kbrk
    refine ⟨by omega, by omega, fun hn => ?_, by omega, by omega, fun i hi => ?_, L.kept _ n h⟩
    · have : 1 ≤ k := by
        by_cases hk : k = 0
        · subst hk
          have e : Spec.kSize 0 = 8 := by decide
          omega
        · omega
      have := o4 this
      omega
    · exact Option.ne_none_iff_exists'.mp (L.inv.mapd _ (by omega) (by omega))
  · rw [L.live, List.pairwise_map]
    have hn := L.inv.lnodup
    rw [List.Nodup, List.pairwise_map] at hn
    refine hn.imp_of_mem ?_
    rintro ⟨x, k, n⟩ ⟨x', k', n'⟩ hx hx' hne
    have := L.inv.apart_live hx hx' hne
    show x + 8 + n ≤ x' + 8 ∨ x' + 8 + n' ≤ x + 8
    omega
  · rw [L.live, List.map_map]
    have hn := L.inv.lnodup
    rw [List.Nodup, List.pairwise_map] at hn ⊢
    refine hn.imp ?_
    intro a b hne
    show a.1 + 8 ≠ b.1 + 8
    omega

/-- C84: every request of at most 2^30 + 4088 bytes is met, and every larger one is answered NULL without touching any block; every block held can be
freed and resized; nothing is undefined. -/
theorem C84_answers_partial {K : BrkK} (hK : K.Ok) {h₀ : Heap} {c : KClient} (r : KReach K h₀ c) (hr : KRoom K c.st.b) :
    (∀ n : Nat, n ≤ 2 ^ 30 + 4088 → ∃ s p, kmalloc K c.st n = .ok (s, p) ∧ p ≠ 0) ∧
    (∀ n : Nat, 2 ^ 30 + 4088 < n → n < 2 ^ 31 → ∃ s, kmalloc K c.st n = .ok (s, 0) ∧ ∀ p k, (p, k) ∈ c.live → ∀ i, i < k → s.mem (p + i) = c.st.mem (p + i)) ∧
    (∀ p n, (p, n) ∈ c.live → ∃ s, kfree c.st p = .ok s) ∧
    (∀ p n, (p, n) ∈ c.live → ∀ n' : Nat, 1 ≤ n' → n' ≤ 2 ^ 30 + 4088 → ∃ s q, krealloc K c.st p n' = .ok (s, q) ∧ q ≠ 0) := by
  obtain ⟨fl, lv, L⟩ := kreach_linked hK r
  have hmax : Spec.kMax = 1073745912 := by decide
  refine ⟨?_, ?_, ?_, ?_⟩
  · intro n hn
    obtain ⟨s, h, k, _, e, _⟩ := kmalloc_spec hK L.inv hr (nbytes := n) (by omega)
    exact ⟨s, h + 8, e, by omega⟩
  · intro n hn hn2
    obtain ⟨s, e, _, _, f, _⟩ := kmalloc_null hK L.inv hr (nbytes := n) (by omega) (by omega)
    refine ⟨s, e, fun p k hp i hi => ?_⟩
    obtain ⟨x, j, rfl, hx⟩ := live_mem L.live hp
    have := (L.inv.used x j k hx).2.2.1
    have := (L.inv.own x j (.inr ⟨k, hx⟩)).2.1
    exact f _ (by omega)
  · intro p n hp
    obtain ⟨x, j, rfl, hx⟩ := live_mem L.live hp
    obtain ⟨s, e, _⟩ := kfree_spec L.inv hx
    exact ⟨s, e⟩
  · intro p n hp n' h1 h2
    obtain ⟨x, j, rfl, hx⟩ := live_mem L.live hp
    obtain ⟨s, h', k', fl', e, _⟩ := krealloc_spec hK L.inv hr hx h1 (by omega)
    exact ⟨s, h' + 8, e, by omega⟩

/-- C84: a block that is resized keeps its bytes up to the smaller of both sizes, and all other blocks keep theirs. -/
theorem C84_realloc_partial {K : BrkK} (hK : K.Ok) {h₀ : Heap} {c : KClient} (r : KReach K h₀ c) (hr : KRoom K c.st.b) {p n n' : Nat}
    (hl : (p, n) ∈ c.live) (h1 : 1 ≤ n') (h2 : n' ≤ 2 ^ 30 + 4088) :
    ∃ s q, krealloc K c.st p n' = .ok (s, q) ∧ (∀ i, i < n → i < n' → s.mem (q + i) = c.st.mem (p + i)) ∧
      ∀ p' k, (p', k) ∈ c.live → p' ≠ p → ∀ i, i < k → s.mem (p' + i) = c.st.mem (p' + i) := by
  obtain ⟨fl, lv, L⟩ := kreach_linked hK r
  have hmax : Spec.kMax = 1073745912 := by decide
  obtain ⟨x, j, rfl, hx⟩ := live_mem L.live hl
  obtain ⟨s, h', k', fl', e, _, f1, f2, _⟩ := krealloc_spec hK L.inv hr hx h1 (by omega)
  refine ⟨s, h' + 8, e, f1, ?_⟩
  intro p' k hp hne i hi
  obtain ⟨y, j', rfl, hy⟩ := live_mem L.live hp
  exact f2 y j' k hy (by omega) i hi

/-- C84: freeing a pointer again, before it has been handed out again, changes nothing. -/
theorem C84_again {K : BrkK} (hK : K.Ok) {h₀ : Heap} {c : KClient} (r : KReach K h₀ c) {p : Nat} (hp : p ∈ c.freed) : kfree c.st p = .ok c.st := by
  obtain ⟨fl, lv, L⟩ := kreach_linked hK r
  obtain ⟨h, k, rfl, hh⟩ := L.freed p hp
  exact kfree_again L.inv hh

/-- C84: a block that is freed is handed out for the next request of its size, and the data segment does not grow. -/
theorem C84_reuse {K : BrkK} (hK : K.Ok) {h₀ : Heap} {c : KClient} (r : KReach K h₀ c) (hr : KRoom K c.st.b) {p n : Nat} (hl : (p, n) ∈ c.live) :
    ∃ s s', kfree c.st p = .ok s ∧ kmalloc K s n = .ok (s', p) ∧ s'.b.kbrk = c.st.b.kbrk := by
  obtain ⟨fl, lv, L⟩ := kreach_linked hK r
  obtain ⟨h, k, rfl, hx⟩ := live_mem L.live hl
  obtain ⟨s, e, I, e2, e3, _⟩ := kfree_spec L.inv hx
  have hc := (L.inv.used h k n hx).2.2
  have hk := (L.inv.own h k (.inr ⟨n, hx⟩)).2.2.2.2
  have hmax : Spec.kMax = 1073745912 := by decide
  have hn := (class_le hc).mp (by omega)
  have hp : s.pagesz = 4096 := by
    rcases L.inv.phase with e | e
    · rw [e.2.2.2] at hx; simp at hx
    · omega
  obtain ⟨s1, i1, I1, i2, i3, i4, i5, i6⟩ := kInit_spec hK I (fun j => by rw [e2]; exact hr j)
  have hs1 := i5 hp
  subst hs1
  have hph : s1.pagebucket = 9 := by
    rcases I1.phase with h | h
    · omega
    · exact h.2.1
  obtain ⟨k', b1, b2, b3⟩ := kBucket_spec (nbytes := n) i2 hph (by omega)
  rw [Int.toNat_natCast] at b3
  obtain rfl := class_unique hc b3
  obtain ⟨s', t1, _, t3, _⟩ := kTake_pop (n := n) (h := h) (t := fl k) hK I hc (by simp)
  refine ⟨s1, s', e, ?_, by omega⟩
  unfold kmalloc
  rw [i1, Res.ok_bind]
  simp only [if_true]
  rw [b1, Res.ok_bind]
  exact t1

/-- C84: kcalloc of at most 2^30 + 4088 bytes gives a block of zeros, whatever was in it; the other blocks keep their bytes.  (Missing: larger products.) -/
theorem C84_kcalloc_partial {K : BrkK} (hK : K.Ok) {h₀ : Heap} {c : KClient} (r : KReach K h₀ c) (hr : KRoom K c.st.b) {k n : Nat}
    (h : k * n ≤ 2 ^ 30 + 4088) :
    ∃ s p, kcalloc K c.st k n = .ok (s, p) ∧ p ≠ 0 ∧ (∀ i, i < k * n → s.mem (p + i) = some 0#8) ∧
      ∀ p' b, (p', b) ∈ c.live → ∀ i, i < b → s.mem (p' + i) = c.st.mem (p' + i) := by
  obtain ⟨fl, lv, L⟩ := kreach_linked hK r
  have hmax : Spec.kMax = 1073745912 := by decide
  have e0 : ((k : Int) * (n : Int)) = ((k * n : Nat) : Int) := by omega
  obtain ⟨s, h', j, fl', e, I', _, _, f⟩ := kmalloc_spec hK L.inv hr (nbytes := ((k * n : Nat) : Int)) (by omega)
  rw [Int.toNat_natCast] at I'
  generalize hz : k * n = z at *
  have hfit := (I'.used h' j z (by simp)).2.2.1
  obtain ⟨o1, o2, _⟩ := I'.own h' j (.inr ⟨z, by simp⟩)
  have hup := le_pageUp s.b.kbrk
  have hm : s.mem.Mapped (h' + 8) z := fun i hi => Option.ne_none_iff_exists'.mp (I'.mapd _ (by omega) (by omega))
  have hset := C14_memset (m := s.mem) (s := h' + 8) (n := z) 0 hm
  refine ⟨s.setMem (s.mem.write (h' + 8) (List.replicate z (BitVec.ofInt 8 0))), h' + 8, ?_, by omega, ?_, ?_⟩
  · unfold kcalloc
    rw [e0]
    unfold ckLong
    rw [if_pos (by omega), Res.ok_bind, cutInt_nat (by omega), e, Res.ok_bind]
    show (do
      let t ← memset s.mem (h' + 8) 0 z
      pure (s.setMem t.1, h' + 8)) = _
    rw [hset]
    rfl
  · intro i hi
    show (s.mem.write (h' + 8) (List.replicate z (BitVec.ofInt 8 0))) (h' + 8 + i) = _
    rw [write_inside _ _ _ i (by simpa using hi)]
    simp
  · intro p' b hp i hi
    obtain ⟨x, j', rfl, hx⟩ := live_mem L.live hp
    have hne : h' ≠ x := by
      intro e'
      have := I'.lnodup
      rw [List.map_cons] at this
      exact (List.nodup_cons.mp this).1 (List.mem_map.mpr ⟨_, hx, e'.symm⟩)
    have hd := I'.disj h' j x j' (.inr ⟨z, by simp⟩) (.inr ⟨b, List.mem_cons_of_mem _ hx⟩)
    have := (L.inv.used x j' b hx).2.2.1
    have := (L.inv.own x j' (.inr ⟨b, hx⟩)).2.1
    show (s.mem.write (h' + 8) (List.replicate z (BitVec.ofInt 8 0))) (x + 8 + i) = _
    rw [write_outside _ _ _ _ (by simp; omega), f _ (by omega) (by omega) (by omega)]

/-- A kernel with room. -/
def exKmK : BrkK := ⟨0x100000, fun _ => 0x100000000⟩

theorem exKmK_ok : exKmK.Ok := ⟨by decide, by decide, by decide, fun _ => by simp [exKmK]⟩

/-- A history: `p = kmalloc(100); q = kmalloc(3000); kfree(p)`. -/
theorem exKmalloc : ∃ c p q, KReach exKmK ⟨exHeapMem, 252⟩ c ∧ c.live = [(q, 3000)] ∧ c.freed = [p] ∧ p ≠ q ∧ KRoom exKmK c.st.b := by
  have hmax : Spec.kMax = 1073745912 := by decide
  have hl : ∀ k, exKmK.limit k = 0x100000000 := fun _ => rfl
  have h0 : (KSt.init exKmK ⟨exHeapMem, 252⟩).b.kbrk = 0x100000 := rfl
  have r0 : KRoom exKmK (KSt.init exKmK ⟨exHeapMem, 252⟩).b := fun k => by rw [hl]; omega
  obtain ⟨s1, h1, k1, fl1, e1, I1, _, b1, _⟩ := kmalloc_spec exKmK_ok (KInv.init exKmK_ok ⟨exHeapMem, 252⟩) r0 (nbytes := ((100 : Nat) : Int)) (by omega)
  have R1 := KReach.alloc 100 (KReach.init (K := exKmK) (h₀ := ⟨exHeapMem, 252⟩)) r0 (by omega) e1
  have r1 : KRoom exKmK s1.b := fun k => by rw [hl]; omega
  obtain ⟨s2, h2, k2, fl2, e2, I2, _, b2, _⟩ := kmalloc_spec exKmK_ok I1 r1 (nbytes := ((3000 : Nat) : Int)) (by omega)
  have R2 := KReach.alloc 3000 R1 r1 (by omega) e2
  have hne : h1 ≠ h2 := by
    have := I2.lnodup
    simp at this
    exact fun e => this e.symm
  obtain ⟨s3, e3, I3, b3, _⟩ := kfree_spec I2 (h := h1) (k := k1) (n := 100) (by simp)
  have R3 := KReach.free (p := h1 + 8) (n := 100) R2 (by simp) e3
  refine ⟨_, h1 + 8, h2 + 8, R3, ?_, ?_, by omega, fun k => ?_⟩
  · simp [Ne.symm hne]
  · simp
  · show s3.b.kbrk + _ ≤ _
    rw [hl]; omega

/-- The history meets the hypotheses: the block of 100 bytes comes back, the one of 3000 is resized. -/
example : ∃ c p q, KReach exKmK ⟨exHeapMem, 252⟩ c ∧ kfree c.st p = .ok c.st ∧ (∃ s q', krealloc exKmK c.st q 5000 = .ok (s, q') ∧
    ∀ i, i < 3000 → s.mem (q' + i) = c.st.mem (q + i)) ∧ ∃ s p', kcalloc exKmK c.st 10 7 = .ok (s, p') ∧ s.mem (p' + 69) = some 0#8 := by
  obtain ⟨c, p, q, r, h1, h2, _, hr⟩ := exKmalloc
  obtain ⟨s, q', e1, e2, _⟩ := C84_realloc_partial exKmK_ok r hr (p := q) (n := 3000) (n' := 5000) (by rw [h1]; simp) (by omega) (by omega)
  obtain ⟨s', p', e3, _, e4, _⟩ := C84_kcalloc_partial exKmK_ok r hr (k := 10) (n := 7) (by omega)
  exact ⟨c, p, q, r, C84_again exKmK_ok r (by rw [h2]; simp), ⟨s, q', e1, fun i hi => e2 i hi (by omega)⟩, s', p', e3, e4 69 (by omega)⟩

/-! ### Refuted -/

/-- C84, full statement on sizes: a request for a negative number of bytes is answered NULL. -/
def C84_negative_full : Prop :=
  ∀ (K : BrkK) (h₀ : Heap), K.Ok → ∀ c, KReach K h₀ c → KRoom K c.st.b → ∀ n : Int, n < 0 → -2147483648 ≤ n → ∀ s p, kmalloc K c.st n = .ok (s, p) → p = 0

/-- Every negative request is answered with a block, one of no bytes. -/
theorem C84_negative_refuted : ¬ C84_negative_full ∧
    ∀ (K : BrkK) (h₀ : Heap), K.Ok → ∀ c, KReach K h₀ c → KRoom K c.st.b → ∀ n : Int, n < 0 → ∃ s p, kmalloc K c.st n = .ok (s, p) ∧ p ≠ 0 := by
  have key : ∀ (K : BrkK) (h₀ : Heap), K.Ok → ∀ c, KReach K h₀ c → KRoom K c.st.b → ∀ n : Int, n < 0 → ∃ s p, kmalloc K c.st n = .ok (s, p) ∧ p ≠ 0 := by
    intro K h₀ hK c r hr n hn
    obtain ⟨fl, lv, L⟩ := kreach_linked hK r
    obtain ⟨s, h, k, _, e, _⟩ := kmalloc_spec hK L.inv hr (nbytes := n) (by omega)
    exact ⟨s, h + 8, e, by omega⟩
  refine ⟨fun hf => ?_, key⟩
  have hr : KRoom exKmK (KSt.init exKmK ⟨exHeapMem, 252⟩).b := fun _ => by simp [exKmK, KSt.init, BrkSt.init]
  obtain ⟨s, p, e, hp⟩ := key exKmK ⟨exHeapMem, 252⟩ exKmK_ok _ .init hr (-1) (by omega)
  exact hp (hf exKmK ⟨exHeapMem, 252⟩ exKmK_ok _ .init hr (-1) (by omega) (by omega) s p e)

/-- C84, full statement on refusals: a block that is handed out is mapped. -/
def C84_refused_full : Prop :=
  ∀ (K : BrkK) (h₀ : Heap), K.Ok → ∀ (n : Nat) s p, 1 ≤ n → kmalloc K (KSt.init K h₀) n = .ok (s, p) → p = 0 ∨ s.mem.Mapped p n

/-- A data segment of one page. -/
def exPageK : BrkK := ⟨0x100000, fun _ => 0x101000⟩

/-- When the kernel refuses memory, `kmalloc(3000)` returns a pointer to nothing. -/
theorem C84_refused_refuted : ¬ C84_refused_full := by
  intro hf
  have ok : exPageK.Ok := ⟨by decide, by decide, by decide, fun _ => by simp [exPageK]⟩
  obtain ⟨s1, s2, e1, e2, e3, e4⟩ : ∃ s1 s2 : KSt, kInit exPageK (KSt.init exPageK ⟨fun _ => none, 252⟩) = (do
      let k ← kPages 4096 8 0
      pure ({ s1 with pagebucket := k }, true)) ∧ s1.pagesz = 4096 ∧ kTake exPageK { s1 with pagebucket := 9 } 9 = .ok (s2, 0x101000) ∧
      s2.mem 0x101000 = none := ⟨_, _, rfl, by decide +kernel, rfl, by decide +kernel⟩
  rw [kPages_eq, Res.ok_bind] at e1
  obtain ⟨k, b1, b2, b3⟩ := kBucket_spec (s := { s1 with pagebucket := 9 }) (nbytes := 3000) e2 rfl (by omega)
  have hc : Spec.KClass 3000 9 := by unfold Spec.KClass; decide
  obtain rfl := class_unique hc b3
  have e : kmalloc exPageK (KSt.init exPageK ⟨fun _ => none, 252⟩) ((3000 : Nat) : Int) = .ok (s2, 0x101000) := by
    unfold kmalloc
    rw [e1]
    show (do
      let k ← kBucket { s1 with pagebucket := 9 } 3000
      match k with
      | none => pure ({ s1 with pagebucket := 9 }, 0)
      | some k => kTake exPageK { s1 with pagebucket := 9 } k) = _
    rw [b1, Res.ok_bind]
    exact e3
  rcases hf exPageK _ ok 3000 s2 0x101000 (by omega) e with h | h
  · omega
  · obtain ⟨b, hb⟩ := h 0 (by omega)
    rw [Nat.add_zero, e4] at hb
    exact absurd hb (by simp)

/-- C84, full statement on kmalloc_usable_size: at least the bytes requested. -/
def C84_usable_full : Prop :=
  ∀ (K : BrkK) (h₀ : Heap), K.Ok → ∀ c, KReach K h₀ c → ∀ p n, (p, n) ∈ c.live → ∃ u, kmallocUsableSize c.st p = .ok u ∧ n ≤ u

/-- It answers the number of the class: less than 28 for every block. -/
theorem C84_usable_partial {K : BrkK} (hK : K.Ok) {h₀ : Heap} {c : KClient} (r : KReach K h₀ c) {p n : Nat} (hl : (p, n) ∈ c.live) :
    ∃ u, kmallocUsableSize c.st p = .ok u ∧ Spec.KClass n u ∧ u < 28 := by
  obtain ⟨fl, lv, L⟩ := kreach_linked hK r
  obtain ⟨h, k, rfl, hx⟩ := live_mem L.live hl
  obtain ⟨u1, u2, u3⟩ := L.inv.used h k n hx
  have hk := (L.inv.own h k (.inr ⟨n, hx⟩)).2.2.2.2
  refine ⟨k, ?_, u3, hk⟩
  unfold kmallocUsableSize
  rw [if_neg (by omega), if_neg (by omega), show h + 8 - 8 = h by omega, load_some u1, Res.ok_bind, if_neg (by simp), load_some u2, Res.ok_bind, byte_of_class hk]
  rfl

theorem C84_usable_refuted : ¬ C84_usable_full := by
  intro hf
  obtain ⟨c, p, q, r, h1, _⟩ := exKmalloc
  obtain ⟨u, e1, e2⟩ := hf exKmK _ exKmK_ok c r q 3000 (by rw [h1]; simp)
  obtain ⟨u', e3, _, e4⟩ := C84_usable_partial exKmK_ok r (p := q) (n := 3000) (by rw [h1]; simp)
  rw [e1] at e3
  injection e3 with e3
  omega

/-- C84, full statement on a resize that fails: the old block stays with the caller, and is not handed out again. -/
def C84_fail_full : Prop :=
  ∀ (K : BrkK) (h₀ : Heap), K.Ok → ∀ c, KReach K h₀ c → KRoom K c.st.b → ∀ p n n', (p, n) ∈ c.live → ∀ s, krealloc K c.st p n' = .ok (s, 0) →
    n' ≠ 0 → ∀ s' q, kmalloc K s n = .ok (s', q) → q ≠ p

/-- Every resize to more than 2^30 + 4088 bytes fails and frees the block: the next request of its size is answered with it. -/
theorem C84_fail_refuted : ¬ C84_fail_full ∧
    ∀ (K : BrkK) (h₀ : Heap), K.Ok → ∀ c, KReach K h₀ c → KRoom K c.st.b → ∀ p n (n' : Nat), (p, n) ∈ c.live → 2 ^ 30 + 4088 < n' → n' < 2 ^ 31 →
      ∃ s s', krealloc K c.st p n' = .ok (s, 0) ∧ kmalloc K s n = .ok (s', p) := by
  have key : ∀ (K : BrkK) (h₀ : Heap), K.Ok → ∀ c, KReach K h₀ c → KRoom K c.st.b → ∀ p n (n' : Nat), (p, n) ∈ c.live → 2 ^ 30 + 4088 < n' → n' < 2 ^ 31 →
      ∃ s s', krealloc K c.st p n' = .ok (s, 0) ∧ kmalloc K s n = .ok (s', p) := by
    intro K h₀ hK c r hr p n n' hl h1 h2
    obtain ⟨s, s', e1, e2, _⟩ := C84_reuse hK r hr hl
    refine ⟨s, s', ?_, e2⟩
    obtain ⟨fl, lv, L⟩ := kreach_linked hK r
    obtain ⟨h, k, rfl, hx⟩ := live_mem L.live hl
    have hmax : Spec.kMax = 1073745912 := by decide
    obtain ⟨u1, u2, u3⟩ := L.inv.used h k n hx
    have hk := (L.inv.own h k (.inr ⟨n, hx⟩)).2.2.2.2
    have hp : c.st.pagesz = 4096 := by
      rcases L.inv.phase with e | e
      · rw [e.2.2.2] at hx; simp at hx
      · exact e.1
    obtain ⟨y1, y2⟩ := kBytes_eq hp hk
    have hsz : Spec.kSize k ≤ Spec.kMax + 8 := by
      have := kSize_mono (j := k) (k := 27) (by omega)
      have e : Spec.kSize 27 = Spec.kMax + 8 := by decide
      omega
    obtain ⟨s1, f1, I1, f2, f3, _⟩ := kfree_spec L.inv hx
    rw [f1] at e1
    injection e1 with e1
    subst e1
    obtain ⟨s2, g1, _, _, _, g5⟩ := kmalloc_null hK I1 (fun j => by rw [f2]; exact hr j) (nbytes := n') (by omega) (by omega)
    have hs2 := g5 (by omega)
    subst hs2
    unfold krealloc
    rw [if_neg (by omega), if_neg (by omega), if_neg (by omega), show h + 8 - 8 = h by omega]
    have eo : kOld c.st h = .ok (true, k) := by
      unfold kOld
      rw [load_some u1, Res.ok_bind, if_pos rfl, load_some u2, Res.ok_bind, byte_of_class hk]
      rfl
    rw [eo, Res.ok_bind]
    simp only [if_true]
    rw [y1, Res.ok_bind, y2]
    have lo : ∃ lo : Int, (if k ≠ 0 then do
          let y ← shl1 (k + 2)
          pure (kBytes c.st y)
        else pure 0 : Res Int) = .ok lo := by
      by_cases h0 : k = 0
      · exact ⟨0, by rw [if_neg (by omega)]; rfl⟩
      · obtain ⟨z1, z2⟩ := kBytes_eq (k := k - 1) hp (by omega)
        rw [show k - 1 + 3 = k + 2 by omega] at z1
        exact ⟨_, by rw [if_pos h0, z1, Res.ok_bind]; rfl⟩
    obtain ⟨lo, l1⟩ := lo
    rw [l1, Res.ok_bind, if_neg (by omega), f1, Res.ok_bind]
    unfold kMove
    rw [cutInt_nat (by omega), g1, Res.ok_bind]
    rfl
  refine ⟨fun hf => ?_, key⟩
  obtain ⟨c, p, q, r, h1, _, _, hr⟩ := exKmalloc
  obtain ⟨s, s', e1, e2⟩ := key exKmK _ exKmK_ok c r hr q 3000 2000000000 (by rw [h1]; simp) (by omega) (by omega)
  exact hf exKmK _ exKmK_ok c r hr q 3000 _ (by rw [h1]; simp) s e1 (by omega) s' q e2 rfl

/-- C84, full statement on kcalloc: NULL when there is no such block. -/
def C84_kcalloc_full : Prop :=
  ∀ (K : BrkK) (h₀ : Heap), K.Ok → h₀.mem 0 = none → KRoom K (KSt.init K h₀).b → ∀ k n : Nat, k * n < 2 ^ 63 → ∃ s p, kcalloc K (KSt.init K h₀) k n = .ok (s, p)

/-- Every kcalloc of more than 2^30 + 4088 and less than 2^31 bytes clears memory at NULL. -/
theorem C84_kcalloc_refuted : ¬ C84_kcalloc_full ∧
    ∀ (K : BrkK) (h₀ : Heap), K.Ok → h₀.mem 0 = none → KRoom K (KSt.init K h₀).b → ∀ k n : Nat, 2 ^ 30 + 4088 < k * n → k * n < 2 ^ 31 →
      kcalloc K (KSt.init K h₀) k n = .ub := by
  have key : ∀ (K : BrkK) (h₀ : Heap), K.Ok → h₀.mem 0 = none → KRoom K (KSt.init K h₀).b → ∀ k n : Nat, 2 ^ 30 + 4088 < k * n → k * n < 2 ^ 31 →
      kcalloc K (KSt.init K h₀) k n = .ub := by
    intro K h₀ hK h0 hr k n h1 h2
    have hmax : Spec.kMax = 1073745912 := by decide
    have e0 : ((k : Int) * (n : Int)) = ((k * n : Nat) : Int) := by omega
    have I := KInv.init hK h₀
    obtain ⟨s, e, _, _, f, _⟩ := kmalloc_null hK I hr (nbytes := ((k * n : Nat) : Int)) (by omega) (by omega)
    generalize k * n = z at *
    unfold kcalloc
    rw [e0]
    unfold ckLong
    rw [if_pos (by omega), Res.ok_bind, cutInt_nat (by omega), e, Res.ok_bind]
    have hz : s.mem 0 = none := by
      rw [f 0 (show 0 < K.start from hK.pos)]
      exact h0
    show (do
      let t ← memset s.mem 0 0 z
      pure (s.setMem t.1, 0)) = _
    unfold memset
    rw [memsetLoop, if_pos (by omega), store_none hz]
    rfl
  refine ⟨fun hf => ?_, key⟩
  obtain ⟨s, p, e⟩ := hf exKmK ⟨exHeapMem, 252⟩ exKmK_ok (by decide) (fun _ => by simp [exKmK, KSt.init, BrkSt.init]) 2000000000 1 (by omega)
  rw [key exKmK ⟨exHeapMem, 252⟩ exKmK_ok (by decide) (fun _ => by simp [exKmK, KSt.init, BrkSt.init]) 2000000000 1 (by omega) (by omega)] at e
  exact absurd e (by simp)

/-- C84: of the same history: the block of 3000 bytes is at a multiple of 16, its class is found, it is given out again after
`kfree`, and another 2000 bytes are to be had. -/
example : ∃ c q, KReach exKmK ⟨exHeapMem, 252⟩ c ∧ (q, 3000) ∈ c.live ∧ q % 16 = 0 ∧ c.st.mem.Mapped q 3000 ∧
    (∃ u, kmallocUsableSize c.st q = .ok u ∧ Spec.KClass 3000 u) ∧
    (∃ s s', kfree c.st q = .ok s ∧ kmalloc exKmK s (3000 : Nat) = .ok (s', q)) ∧
    ∃ s p, kmalloc exKmK c.st (2000 : Nat) = .ok (s, p) ∧ p ≠ 0 := by
  obtain ⟨c, p, q, r, h1, -, -, hr⟩ := exKmalloc
  have hl : (q, 3000) ∈ c.live := by rw [h1]; simp
  obtain ⟨-, -, a1, -, -, a2, -⟩ := (C84_history_partial exKmK_ok r).1 q 3000 hl
  obtain ⟨u, u1, u2, -⟩ := C84_usable_partial exKmK_ok r hl
  obtain ⟨s, s', f1, f2, -⟩ := C84_reuse exKmK_ok r hr hl
  exact ⟨c, q, r, hl, a1 (by omega), a2, ⟨u, u1, u2⟩, ⟨s, s', f1, f2⟩, (C84_answers_partial exKmK_ok r hr).1 2000 (by omega)⟩

end Minilib

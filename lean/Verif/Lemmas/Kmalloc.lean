import Verif.Spec.Kmalloc
import Verif.Lemmas.Brk
import Verif.Lemmas.MemFn
/-
The blocks of kmalloc: free lists and blocks in use, and what each call does to them.
-/

set_option autoImplicit false

namespace Minilib
open Mem

/-! ### pointers in memory -/

theorem bytesPtr_ptrBytes {p : Nat} (h : p < 2 ^ 64) : bytesPtr (ptrBytes p) = p := by
  simp only [bytesPtr, ptrBytes, List.foldr_cons, List.foldr_nil, BitVec.toNat_ofNat]
  omega

theorem loadP_holds {m : Mem} {a p : Nat} (h : m.Holds a (ptrBytes p)) (hp : p < 2 ^ 64) : loadP m a = .ok p := by
  have := loadBytes_holds h
  unfold loadP
  rw [show (8 : Nat) = (ptrBytes p).length from rfl, this, Res.ok_bind, bytesPtr_ptrBytes hp]
  rfl

theorem storeP_mapped {m : Mem} {a p : Nat} (h : m.Mapped a 8) : storeP m a p = .ok (m.write a (ptrBytes p)) := by
  unfold storeP
  exact storeBytes_mapped h

theorem ptr_low {p : Nat} (h : p % 8 = 0) : BitVec.ofNat 8 p ≠ 0xef#8 := by
  intro e
  have := congrArg BitVec.toNat e
  simp at this
  omega

/-! ### classes -/

theorem kSize_pos (k : Nat) : 8 ≤ Spec.kSize k := by
  unfold Spec.kSize
  have : 2 ^ 3 ≤ 2 ^ (k + 3) := Nat.pow_le_pow_right (by omega) (by omega)
  split <;> omega

theorem kSize_mono {j k : Nat} (h : j ≤ k) : Spec.kSize j ≤ Spec.kSize k := by
  unfold Spec.kSize
  have : 2 ^ (j + 3) ≤ 2 ^ (k + 3) := Nat.pow_le_pow_right (by omega) (by omega)
  split <;> split <;> omega

theorem class_unique {n j k : Nat} (h1 : Spec.KClass n j) (h2 : Spec.KClass n k) : j = k := by
  rcases Nat.lt_trichotomy j k with h | h | h
  · have := h2.2 j h; have := h1.1; omega
  · exact h
  · have := h1.2 k h; have := h2.1; omega

theorem kFit_small {nbytes : Int} (h : nbytes ≤ 4088) : ∀ d b, d = 9 - b → b ≤ 9 → (∀ j, j < b → (Spec.kSize j : Int) < nbytes + 8) →
    ∃ k, kFit nbytes (-8) (2 ^ (b + 3)) b = .ok (some k) ∧ k ≤ 9 ∧ Spec.KClass nbytes.toNat k := by
  intro d
  induction d with
  | zero =>
    intro b hd hb hj
    obtain rfl : b = 9 := by omega
    refine ⟨9, ?_, by omega, ?_, fun j hjj => ?_⟩
    · rw [kFit, if_neg (by omega)]; rfl
    · have : Spec.kSize 9 = 8192 := by decide
      omega
    · have := hj j hjj; omega
  | succ d ih =>
    intro b hd hb hj
    have hp : 2 ^ (b + 3 + 1) = 2 ^ (b + 3) * 2 := Nat.pow_succ ..
    have hle : 2 ^ (b + 3) ≤ 2 ^ 11 := Nat.pow_le_pow_right (by omega) (by omega)
    have hge : 0 < 2 ^ (b + 3) := Nat.pow_pos (by omega)
    have hs : Spec.kSize b = 2 ^ (b + 3) := if_pos (by omega)
    by_cases hf : ((2 ^ (b + 3) : Nat) : Int) + -8 < nbytes
    · rw [kFit, if_pos hf, Nat.mod_eq_of_lt (by omega), if_neg (by omega), ← hp, show b + 3 + 1 = b + 1 + 3 by omega]
      refine ih (b + 1) (by omega) (by omega) fun j hjj => ?_
      rcases Nat.lt_or_eq_of_le (Nat.le_of_lt_succ hjj) with h1 | h1
      · exact hj j h1
      · subst h1; rw [hs]; omega
    · refine ⟨b, ?_, by omega, ?_, fun j hjj => ?_⟩
      · rw [kFit, if_neg hf]; rfl
      · have := kSize_pos b
        rw [hs] at this ⊢
        omega
      · have := hj j hjj; omega

theorem kFit_large {nbytes : Int} (h0 : 4088 < nbytes) (h : nbytes < 2147483648) : ∀ d b, d = 28 - b → 9 ≤ b → b ≤ 28 →
    (∀ j, j < b → (Spec.kSize j : Int) < nbytes + 8) →
    ∃ k, kFit nbytes 4088 (2 ^ (b + 3)) b = .ok (some k) ∧ k ≤ 28 ∧ Spec.KClass nbytes.toNat k := by
  intro d
  induction d with
  | zero =>
    intro b hd hb hb2 hj
    obtain rfl : b = 28 := by omega
    refine ⟨28, ?_, by omega, ?_, fun j hjj => ?_⟩
    · rw [kFit, if_neg (by omega)]; rfl
    · have : Spec.kSize 28 = 2147487744 := by decide
      omega
    · have := hj j hjj; omega
  | succ d ih =>
    intro b hd hb hb2 hj
    have hp : 2 ^ (b + 3 + 1) = 2 ^ (b + 3) * 2 := Nat.pow_succ ..
    have hle : 2 ^ (b + 3) ≤ 2 ^ 30 := Nat.pow_le_pow_right (by omega) (by omega)
    have hge : 0 < 2 ^ (b + 3) := Nat.pow_pos (by omega)
    have hs : Spec.kSize b = 2 ^ (b + 3) + 4096 := if_neg (by omega)
    by_cases hf : ((2 ^ (b + 3) : Nat) : Int) + 4088 < nbytes
    · rw [kFit, if_pos hf, Nat.mod_eq_of_lt (by omega), if_neg (by omega), ← hp, show b + 3 + 1 = b + 1 + 3 by omega]
      refine ih (b + 1) (by omega) (by omega) (by omega) fun j hjj => ?_
      rcases Nat.lt_or_eq_of_le (Nat.le_of_lt_succ hjj) with h1 | h1
      · exact hj j h1
      · subst h1; rw [hs]; omega
    · refine ⟨b, ?_, by omega, ?_, fun j hjj => ?_⟩
      · rw [kFit, if_neg hf]; rfl
      · rw [hs]; omega
      · have := hj j hjj; omega

theorem kBucket_spec {s : KSt} (h1 : s.pagesz = 4096) (h2 : s.pagebucket = 9) {nbytes : Int} (h : nbytes < 2147483648) :
    ∃ k, kBucket s nbytes = .ok (some k) ∧ k ≤ 28 ∧ Spec.KClass nbytes.toNat k := by
  unfold kBucket
  rw [h1, h2]
  by_cases hn : nbytes ≤ 4088
  · rw [if_pos (by omega)]
    obtain ⟨k, e1, e2, e3⟩ := kFit_small hn 9 0 rfl (by omega) (fun j hj => by omega)
    exact ⟨k, e1, by omega, e3⟩
  · rw [if_neg (by omega)]
    obtain ⟨k, e1, e2, e3⟩ := kFit_large (by omega) h 19 9 rfl (by omega) (by omega) (fun j hj => by
      have h8 : Spec.kSize j ≤ Spec.kSize 8 := kSize_mono (by omega)
      have : Spec.kSize 8 = 2048 := by decide
      omega)
    exact ⟨k, e1, e2, e3⟩

theorem class_le {n k : Nat} (h : Spec.KClass n k) : k ≤ 27 ↔ n ≤ Spec.kMax := by
  have e : Spec.kSize 27 = Spec.kMax + 8 := by decide
  constructor
  · intro hk
    have := kSize_mono hk
    have := h.1
    omega
  · intro hn
    by_cases hk : k ≤ 27
    · exact hk
    · have := h.2 27 (by omega); omega

theorem kPages_eq : kPages 4096 8 0 = .ok 9 := by
  rw [kPages, if_pos (by decide), kPages, if_pos (by decide), kPages, if_pos (by decide), kPages, if_pos (by decide), kPages, if_pos (by decide),
    kPages, if_pos (by decide), kPages, if_pos (by decide), kPages, if_pos (by decide), kPages, if_pos (by decide), kPages, if_neg (by decide)]
  rfl

/-! ### the data segment -/

/-- The break is known, and room for `n` bytes. -/
theorem sbrk_grow {K : BrkK} (hK : K.Ok) {s : BrkSt} (hc : s.brk = 0 ∨ s.brk = s.kbrk) (hs : K.start ≤ s.kbrk) {n : Nat}
    (hn : ∀ k, s.kbrk + n ≤ K.limit k) :
    ∃ s', sbrk K s (n : Int) = .ok (s', (s.kbrk : Int)) ∧ s'.kbrk = s.kbrk + n ∧ s'.brk = s.kbrk + n ∧
      s'.heap.mem = remap s.heap.mem s.kbrk (s.kbrk + n) := by
  have hp := hK.pos
  have hl := hK.lim
  obtain ⟨g, e1, e2, e3⟩ : ∃ g, getbrk K s = (g, (s.kbrk : Int)) ∧ g.heap = s.heap ∧ g.kbrk = s.kbrk := by
    rcases hc with hc | hc
    · refine ⟨⟨s.heap, s.kbrk, s.mstart, s.kbrk, s.calls + 1⟩, ?_, rfl, rfl⟩
      have e : ((0 : Int) % 18446744073709551616).toNat = 0 := by decide
      simp only [getbrk, hc, if_true, sysBrk, e]
      rw [if_neg (by omega)]
      simp
    · refine ⟨s, ?_, rfl, rfl⟩
      rw [getbrk, if_neg (by omega), hc]
  have h1 := hl g.calls
  have h2 := hn g.calls
  have es := sysBrk_ok (K := K) (s := g) (a := s.kbrk + n) (by omega) (by omega) (Or.inr h2)
  unfold sbrk
  simp only [e1]
  have ec : ckLong ((s.kbrk : Int) + (n : Int)) = .ok ((s.kbrk + n : Nat) : Int) := by
    unfold ckLong
    rw [if_pos (by omega)]
    congr 1
  rw [ec, Res.ok_bind, es]
  simp only []
  rw [if_pos (by omega)]
  refine ⟨_, rfl, rfl, ?_, ?_⟩
  · exact Int.toNat_natCast _
  · simp [e2, e3]

/-! ### the invariant -/

/-- The blocks from `p` on are the list. -/
def KChain (m : Mem) (p : Nat) : List Nat → Prop
  | [] => p = 0
  | h :: hs => p = h ∧ ∃ q, m.Holds h (ptrBytes q) ∧ KChain m q hs

/-- The blocks: free or in use. -/
def KOwn (fl : Nat → List Nat) (lv : List (Nat × Nat × Nat)) (h k : Nat) : Prop := h ∈ fl k ∨ ∃ n, (h, k, n) ∈ lv

/-- The free lists `fl` and the blocks in use `lv` (header, class, bytes). -/
structure KInv (K : BrkK) (s : KSt) (fl : Nat → List Nat) (lv : List (Nat × Nat × Nat)) : Prop where
  cached : s.b.brk = 0 ∨ s.b.brk = s.b.kbrk
  start : K.start ≤ s.b.kbrk
  bound : s.b.kbrk < 2 ^ 47
  mapd : ∀ a, K.start ≤ a → a < pageUp s.b.kbrk → s.mem a ≠ none
  fresh : ∀ a, s.b.kbrk ≤ a → a < pageUp s.b.kbrk → s.mem a = some 0#8
  phase : (s.pagesz = 0 ∧ s.b.kbrk = K.start ∧ (∀ k, fl k = []) ∧ lv = []) ∨ (s.pagesz = 4096 ∧ s.pagebucket = 9 ∧ s.b.kbrk % 4096 = 4088)
  chain : ∀ k, KChain s.mem (s.nextf k) (fl k)
  own : ∀ h k, KOwn fl lv h k → K.start ≤ h ∧ h + Spec.kSize k ≤ s.b.kbrk ∧ h % 8 = 0 ∧ (1 ≤ k → h % 16 = 8) ∧ k < 28
  disj : ∀ h k h' k', KOwn fl lv h k → KOwn fl lv h' k' → (h = h' ∧ k = k') ∨ h + Spec.kSize k ≤ h' ∨ h' + Spec.kSize k' ≤ h
  nodup : ∀ k, (fl k).Nodup
  excl : ∀ h k k' n, h ∈ fl k → (h, k', n) ∉ lv
  used : ∀ h k n, (h, k, n) ∈ lv → s.mem h = some 0xef#8 ∧ s.mem (h + 1) = some (BitVec.ofNat 8 k) ∧ Spec.KClass n k
  lnodup : (lv.map (·.1)).Nodup

theorem kchain_congr {m m' : Mem} {l : List Nat} {p : Nat} (h : KChain m p l) (hc : ∀ x ∈ l, ∀ a, x ≤ a → a < x + 8 → m' a = m a) : KChain m' p l := by
  induction l generalizing p with
  | nil => exact h
  | cons x xs ih =>
    obtain ⟨h1, q, h2, h3⟩ := h
    refine ⟨h1, q, fun i hi => ?_, ih h3 fun y hy => hc y (List.mem_cons_of_mem _ hy)⟩
    have hi8 : i < 8 := hi
    rw [hc x (List.mem_cons_self ..) (x + i) (by omega) (by omega)]
    exact h2 i hi

theorem kchain_head {m : Mem} {l : List Nat} {p : Nat} (h : KChain m p l) : p = l.headD 0 := by
  cases l with
  | nil => exact h
  | cons x xs => exact h.1

theorem KInv.init {K : BrkK} (hK : K.Ok) (h : Heap) : KInv K (KSt.init K h) (fun _ => []) [] where
  cached := .inl rfl
  start := Nat.le_refl _
  bound := hK.top
  mapd := by
    intro a h1 h2
    have e : pageUp K.start = K.start := by have := hK.page; unfold pageUp; omega
    have : a < pageUp K.start := h2
    omega
  fresh := by
    intro a h1 h2
    have e : pageUp K.start = K.start := by have := hK.page; unfold pageUp; omega
    have : a < pageUp K.start := h2
    have : K.start ≤ a := h1
    omega
  phase := .inl ⟨rfl, rfl, fun _ => rfl, rfl⟩
  chain := fun _ => rfl
  own := by rintro h k (h | ⟨n, h⟩) <;> simp at h
  disj := by rintro h k h' k' (h | ⟨n, h⟩) <;> simp at h
  nodup := fun _ => List.nodup_nil
  excl := by intro h k k' n hh; simp at hh
  used := by intro h k n hh; simp at hh
  lnodup := List.nodup_nil

theorem kInit_spec {K : BrkK} (hK : K.Ok) {s : KSt} {fl : Nat → List Nat} {lv : List (Nat × Nat × Nat)} (I : KInv K s fl lv) (hr : KRoom K s.b) :
    ∃ s', kInit K s = .ok (s', true) ∧ KInv K s' fl lv ∧ s'.pagesz = 4096 ∧ s'.b.kbrk ≤ s.b.kbrk + 4088 ∧ s.b.kbrk ≤ s'.b.kbrk ∧
      (s.pagesz = 4096 → s' = s) ∧ (∀ a, a < s.b.kbrk → s'.mem a = s.mem a) := by
  rcases I.phase with ⟨p1, p2, p3, p4⟩ | ⟨p1, p2, p3⟩
  · unfold kInit
    rw [if_pos p1]
    have hpg := hK.page
    obtain ⟨b1, e1, e2, e3, e4⟩ := sbrk_grow hK I.cached I.start (n := 0) (fun k => by have := hr k; omega)
    obtain ⟨b2, f1, f2, f3, f4⟩ := sbrk_grow (s := b1) hK (.inr (by omega)) (by have := I.start; omega) (n := 4088) (fun k => by have := hr k; omega)
    simp only []
    have e1' : sbrk K s.b 0 = .ok (b1, (s.b.kbrk : Int)) := e1
    have f1' : sbrk K b1 4088 = .ok (b2, (b1.kbrk : Int)) := f1
    rw [e1', Res.ok_bind]
    simp only []
    rw [show (4096 - 8 - (s.b.kbrk : Int) % 4096) = 4088 by omega, if_neg (show ¬ ((4088 : Int) < 0) by omega), if_pos (by omega),
      f1', Res.ok_bind]
    simp only []
    rw [if_neg (by omega), kPages_eq, Res.ok_bind]
    have u1 : pageUp s.b.kbrk = s.b.kbrk := by unfold pageUp; omega
    have u2 : pageUp b2.kbrk = s.b.kbrk + 4096 := by unfold pageUp; omega
    have hm : ∀ a, b2.heap.mem a = if s.b.kbrk ≤ a ∧ a < s.b.kbrk + 4096 then some 0#8 else s.mem a := by
      intro a
      have u3 : pageUp b1.kbrk = s.b.kbrk := by unfold pageUp; omega
      have u4 : pageUp (b1.kbrk + 4088) = s.b.kbrk + 4096 := by unfold pageUp; omega
      have u5 : pageUp (s.b.kbrk + 0) = s.b.kbrk := u1
      rw [f4, remap, e4, u3, u4, remap, u5, u1]
      by_cases h1 : s.b.kbrk ≤ a ∧ a < s.b.kbrk + 4096
      · rw [if_pos h1, if_pos h1]
      · rw [if_neg h1, if_neg h1, if_neg (by omega), if_neg (by omega), if_neg (by omega)]
    refine ⟨_, rfl, ?_, rfl, by simp only []; omega, by simp only []; omega, fun h => by omega, ?_⟩
    · refine ⟨.inr (by simp only []; omega), by simp only []; have := I.start; omega, ?_, ?_, ?_, .inr ⟨rfl, rfl, by simp only []; omega⟩, ?_, ?_, ?_, I.nodup, I.excl, ?_, I.lnodup⟩
      · have := hr 0; have := hK.lim 0; simp only []; omega
      · intro a h1 h2
        show b2.heap.mem a ≠ none
        have h2' : a < pageUp b2.kbrk := h2
        rw [hm, if_pos (by omega)]; simp
      · intro a h1 h2
        show b2.heap.mem a = some 0#8
        have h2' : a < pageUp b2.kbrk := h2
        have h1' : b2.kbrk ≤ a := h1
        rw [hm, if_pos (by omega)]
      · intro k
        have := I.chain k
        rw [p3] at this ⊢
        exact this
      · rintro h k (hh | ⟨n, hh⟩)
        · rw [p3] at hh; simp at hh
        · rw [p4] at hh; simp at hh
      · rintro h k h' k' (hh | ⟨n, hh⟩)
        · rw [p3] at hh; simp at hh
        · rw [p4] at hh; simp at hh
      · intro h k n hh
        rw [p4] at hh; simp at hh
    · intro a ha
      show b2.heap.mem a = _
      rw [hm, if_neg (by omega)]
  · refine ⟨s, ?_, I, p1, by omega, by omega, fun _ => rfl, fun _ _ => rfl⟩
    unfold kInit
    rw [if_neg (by omega)]
    rfl

/-! ### more memory -/

/-- Blocks one behind the other. -/
def kBlocks (op sz : Nat) : Nat → List Nat
  | 0 => []
  | n + 1 => op :: kBlocks (op + sz) sz n

theorem mem_kBlocks {op sz n h : Nat} : h ∈ kBlocks op sz n ↔ ∃ i, i < n ∧ h = op + i * sz := by
  induction n generalizing op with
  | zero => simp [kBlocks]
  | succ n ih =>
    simp only [kBlocks, List.mem_cons, ih]
    constructor
    · rintro (h | ⟨i, h1, h2⟩)
      · exact ⟨0, by omega, by omega⟩
      · exact ⟨i + 1, by omega, by rw [h2, Nat.add_mul]; omega⟩
    · rintro ⟨i, h1, h2⟩
      cases i with
      | zero => left; omega
      | succ i => right; exact ⟨i, by omega, by rw [h2, Nat.add_mul]; omega⟩

theorem kBlocks_nodup {op sz n : Nat} (hs : 0 < sz) : (kBlocks op sz n).Nodup := by
  induction n generalizing op with
  | zero => exact List.nodup_nil
  | succ n ih =>
    refine List.nodup_cons.mpr ⟨?_, ih⟩
    intro h
    obtain ⟨i, _, h2⟩ := mem_kBlocks.mp h
    have : 0 ≤ i * sz := Nat.zero_le _
    omega

theorem kLink_spec {sz : Nat} (hs : 8 ≤ sz) : ∀ (n : Nat) (m : Mem) (op : Nat), m.Mapped op (sz * (n + 1)) → (∀ i, i < 8 → m (op + sz * n + i) = some 0#8) →
    op + sz * (n + 1) < 2 ^ 64 →
    ∃ m', kLink m op sz n = .ok m' ∧ KChain m' op (kBlocks op sz (n + 1)) ∧ (∀ a, a < op ∨ op + sz * (n + 1) ≤ a → m' a = m a) ∧
      (∀ a, m a ≠ none → m' a ≠ none) := by
  intro n
  induction n with
  | zero =>
    intro m op hm hz _
    refine ⟨m, rfl, ⟨rfl, 0, ?_, rfl⟩, fun _ _ => rfl, fun _ h => h⟩
    intro i hi
    have hi8 : i < 8 := hi
    have := hz i hi8
    rw [Nat.mul_zero, Nat.add_zero] at this
    rw [this]
    have : ∀ i, (h : i < 8) → (ptrBytes 0)[i]'h = 0#8 := by decide
    exact congrArg some (this i hi8).symm
  | succ n ih =>
    intro m op hm hz hb
    have e1 : sz * (n + 1 + 1) = sz * n + sz + sz := by rw [Nat.mul_add, Nat.mul_add]; omega
    have e2 : sz * (n + 1) = sz * n + sz := by rw [Nat.mul_add]; omega
    have h8 : m.Mapped op 8 := fun i hi => hm i (by omega)
    obtain ⟨m', f1, f2, f3, f4⟩ := ih (m.write op (ptrBytes (op + sz))) (op + sz)
      (fun i hi => by
        obtain ⟨b, hb⟩ := hm (sz + i) (by omega)
        rw [write_outside _ _ _ _ (Or.inr (by show op + 8 ≤ _; omega)), Nat.add_assoc]
        exact ⟨b, hb⟩)
      (fun i hi => by
        rw [write_outside _ _ _ _ (Or.inr (by show op + 8 ≤ _; omega))]
        have := hz i hi
        rw [show op + sz * (n + 1) + i = op + sz + sz * n + i by omega] at this
        exact this) (by omega)
    refine ⟨m', ?_, ⟨rfl, op + sz, ?_, f2⟩, ?_, ?_⟩
    · rw [kLink, storeP_mapped h8, Res.ok_bind, f1]
    · intro i hi
      have hi8 : i < 8 := hi
      rw [f3 _ (by omega)]
      exact write_inside _ _ _ i hi
    · intro a ha
      rw [f3 a (by omega), write_outside _ _ _ _ (by show a < op ∨ op + 8 ≤ a; omega)]
    · intro a ha
      apply f4
      by_cases h : a < op ∨ op + 8 ≤ a
      · rw [write_outside _ _ _ _ h]; exact ha
      · obtain ⟨i, rfl⟩ : ∃ i, a = op + i := ⟨a - op, by omega⟩
        rw [write_inside _ _ _ i (by show i < 8; omega)]; simp

theorem remap_fresh {m : Mem} {old n x : Nat} (h1 : old % 4096 = 4088) (h2 : n % 4096 = 0) (hf : ∀ a, old ≤ a → a < pageUp old → m a = some 0#8)
    (hx : old ≤ x) (hx2 : x < old + n + 8) : remap m old (old + n) x = some 0#8 := by
  have u1 : pageUp old = old + 8 := by unfold pageUp; omega
  have u2 : pageUp (old + n) = old + n + 8 := by unfold pageUp; omega
  unfold remap
  rw [u1, u2]
  by_cases h : old + 8 ≤ x
  · rw [if_pos ⟨h, hx2⟩]
  · rw [if_neg (by omega), if_neg (by omega)]
    exact hf x hx (by omega)

theorem small_blocks : ∀ k, k < 9 → 2 ^ (k + 3) * (4096 / 2 ^ (k + 3) - 1 + 1) = 4096 ∧ 2 ^ (k + 3) < 4096 ∧ (1 ≤ k → 2 ^ (k + 3) % 16 = 0) ∧ 2 ^ (k + 3) % 8 = 0 := by
  decide

theorem large_blocks {k : Nat} (h : 9 ≤ k) (h2 : k ≤ 27) : 2 ^ (k + 3) % 4096 = 0 ∧ 4096 ≤ 2 ^ (k + 3) ∧ 2 ^ (k + 3) ≤ 2 ^ 30 := by
  refine ⟨?_, ?_, Nat.pow_le_pow_right (by omega) (by omega)⟩
  · rw [show k + 3 = (k - 9) + 12 by omega, Nat.pow_add]; exact Nat.mul_mod_left ..
  · have : 2 ^ 12 ≤ 2 ^ (k + 3) := Nat.pow_le_pow_right (by omega) (by omega)
    omega

/-- Memory grown by whole pages whose first part is cut into the blocks `hs` of class `k`. -/
theorem grown_inv {K : BrkK} {s s' : KSt} {fl : Nat → List Nat} {lv : List (Nat × Nat × Nat)} (I : KInv K s fl lv) (hp : s.pagesz = 4096) {k : Nat} (hk : k ≤ 27)
    (hfk : fl k = []) {amt : Nat} (ha : amt % 4096 = 0) {hs : List Nat} (hn : hs.Nodup)
    (hin : ∀ h ∈ hs, s.b.kbrk ≤ h ∧ h + Spec.kSize k ≤ s.b.kbrk + amt ∧ h % 8 = 0 ∧ (1 ≤ k → h % 16 = 8))
    (hd : ∀ h ∈ hs, ∀ h' ∈ hs, h = h' ∨ h + Spec.kSize k ≤ h' ∨ h' + Spec.kSize k ≤ h)
    (e1 : s'.b.kbrk = s.b.kbrk + amt) (e2 : s'.b.brk = s.b.kbrk + amt) (hb : s.b.kbrk + amt < 2 ^ 47) (e3 : s'.pagesz = 4096) (e4 : s'.pagebucket = 9)
    (e5 : ∀ j, j ≠ k → s'.nextf j = s.nextf j) (hc : KChain s'.mem (s'.nextf k) hs)
    (hm : ∀ a, K.start ≤ a → a < s.b.kbrk + amt + 8 → s'.mem a ≠ none) (hz : ∀ a, s.b.kbrk + amt ≤ a → a < s.b.kbrk + amt + 8 → s'.mem a = some 0#8)
    (hf : ∀ a, a < s.b.kbrk → s'.mem a = s.mem a) : KInv K s' (fun j => if j = k then hs else fl j) lv := by
  have hph : s.b.kbrk % 4096 = 4088 := by rcases I.phase with h | h <;> omega
  have up : pageUp s'.b.kbrk = s.b.kbrk + amt + 8 := by rw [e1]; unfold pageUp; omega
  have hown : ∀ h j, KOwn (fun j => if j = k then hs else fl j) lv h j → (h ∈ hs ∧ j = k) ∨ KOwn fl lv h j := by
    rintro h j (hh | hh)
    · by_cases hj : j = k
      · subst hj; left; simpa using hh
      · right; left; simpa [hj] using hh
    · exact .inr (.inr hh)
  refine ⟨.inr (by omega), by have := I.start; omega, by omega, ?_, ?_, .inr ⟨e3, e4, by omega⟩, ?_, ?_, ?_, ?_, ?_, ?_, I.lnodup⟩
  · intro a h1 h2; exact hm a h1 (by omega)
  · intro a h1 h2; exact hz a (by omega) (by omega)
  · intro j
    by_cases hj : j = k
    · subst hj; simpa using hc
    · simp only [if_neg hj]
      rw [e5 j hj]
      refine kchain_congr (I.chain j) fun x hx a h1 h2 => hf a ?_
      have := (I.own x j (.inl hx)).2.1
      have := kSize_pos j
      omega
  · intro h j hh
    rcases hown h j hh with ⟨h1, rfl⟩ | h1
    · have := hin h h1
      have := I.start
      exact ⟨by omega, by omega, by omega, (hin h h1).2.2.2, by omega⟩
    · have := I.own h j h1
      exact ⟨this.1, by omega, this.2.2⟩
  · intro h j h' j' hh hh'
    rcases hown h j hh with ⟨h1, rfl⟩ | h1 <;> rcases hown h' j' hh' with ⟨h2, rfl⟩ | h2
    · rcases hd h h1 h' h2 with e | e
      · exact .inl ⟨e, rfl⟩
      · exact .inr e
    · have := (I.own h' j' h2).2.1
      have := (hin h h1).1
      right; right; omega
    · have := (I.own h j h1).2.1
      have := (hin h' h2).1
      right; left; omega
    · exact I.disj h j h' j' h1 h2
  · intro j
    by_cases hj : j = k
    · subst hj; simpa using hn
    · simp only [if_neg hj]; exact I.nodup j
  · intro h j k' n hh hl
    by_cases hj : j = k
    · subst hj
      have hh' : h ∈ hs := by simpa using hh
      have := (I.own h k' (.inr ⟨n, hl⟩)).2.1
      have := (hin h hh').1
      have := kSize_pos k'
      omega
    · simp only [if_neg hj] at hh
      exact I.excl h j k' n hh hl
  · intro h j n hl
    have := (I.own h j (.inr ⟨n, hl⟩)).2.1
    have := kSize_pos j
    rw [hf h (by omega), hf (h + 1) (by omega)]
    exact I.used h j n hl

theorem morecore_spec {K : BrkK} (hK : K.Ok) {s : KSt} {fl : Nat → List Nat} {lv : List (Nat × Nat × Nat)} (I : KInv K s fl lv) (hp : s.pagesz = 4096)
    {k : Nat} (hk : k ≤ 27) (hfk : fl k = []) (hr : ∀ j, s.b.kbrk + 0x40002000 ≤ K.limit j) :
    ∃ s' hs, morecore K s k = .ok s' ∧ KInv K s' (fun j => if j = k then hs else fl j) lv ∧ hs ≠ [] ∧ s'.pagesz = 4096 ∧ (s.b.kbrk ≤ s'.b.kbrk ∧ s'.b.kbrk ≤ s.b.kbrk + 0x40001000) ∧
      (∀ a, a < s.b.kbrk → s'.mem a = s.mem a) := by
  have hph : s.pagebucket = 9 ∧ s.b.kbrk % 4096 = 4088 := by
    rcases I.phase with h | h
    · omega
    · exact h.2
  unfold morecore
  rw [if_neg (by omega), if_neg (by omega), hp]
  simp only []
  have hl0 := hK.lim 0
  have hr0 := hr 0
  have hcach := I.cached
  have hst := I.start
  have up : pageUp s.b.kbrk = s.b.kbrk + 8 := by unfold pageUp; omega
  -- both cases: `amt` bytes, `n + 1` blocks
  have main : ∀ amt n, amt % 4096 = 0 → amt ≤ 0x40001000 → Spec.kSize k * (n + 1) ≤ amt → (n = 0 ∨ Spec.kSize k = 2 ^ (k + 3)) → 2 ^ (k + 3) ≤ Spec.kSize k →
      (2 ^ (k + 3) % 8 = 0 ∧ (1 ≤ k → 2 ^ (k + 3) % 16 = 0)) → 8 ≤ 2 ^ (k + 3) →
      ∃ s' hs, (do
        let r ← sbrk K s.b (amt : Nat)
        if r.2 = -1 then pure { s with b := r.1 }
        else do
          let s ← kSetHead { s with b := r.1 } k r.2.toNat
          let m ← kLink s.mem r.2.toNat (2 ^ (k + 3)) n
          pure (s.setMem m)) = .ok s' ∧ KInv K s' (fun j => if j = k then hs else fl j) lv ∧ hs ≠ [] ∧ s'.pagesz = 4096 ∧ (s.b.kbrk ≤ s'.b.kbrk ∧ s'.b.kbrk ≤ s.b.kbrk + 0x40001000) ∧
        (∀ a, a < s.b.kbrk → s'.mem a = s.mem a) := by
    intro amt n ha hle hsz hn hpk hal h8
    obtain ⟨b1, f1, f2, f3, f4⟩ := sbrk_grow hK hcach hst (n := amt) (fun j => by have := hr j; omega)
    have hszn : 2 ^ (k + 3) * (n + 1) ≤ amt := by
      have : 2 ^ (k + 3) * (n + 1) ≤ Spec.kSize k * (n + 1) := Nat.mul_le_mul_right _ hpk
      omega
    have hfr : ∀ a, s.b.kbrk ≤ a → a < s.b.kbrk + amt + 8 → b1.heap.mem a = some 0#8 := by
      intro a h1 h2
      rw [f4]
      exact remap_fresh hph.2 ha I.fresh h1 h2
    have hlow : ∀ a, a < s.b.kbrk → b1.heap.mem a = s.mem a := by
      intro a h1
      rw [f4, remap_low (by omega) (by unfold pageUp; omega)]
    have hmn : 2 ^ (k + 3) * n ≤ 2 ^ (k + 3) * (n + 1) := Nat.mul_le_mul_left _ (by omega)
    have hm1 : 2 ^ (k + 3) * (n + 1) = 2 ^ (k + 3) * n + 2 ^ (k + 3) := by rw [Nat.mul_add, Nat.mul_one]
    obtain ⟨m', g1, g2, g3, g4⟩ := kLink_spec h8 n b1.heap.mem s.b.kbrk (fun i hi => ⟨_, hfr _ (by omega) (by omega)⟩)
      (fun i hi => hfr _ (by omega) (by omega)) (by omega)
    refine ⟨KSt.setMem ⟨b1, fun j => if j = k then s.b.kbrk else s.nextf j, s.pagesz, s.pagebucket⟩ m', kBlocks s.b.kbrk (2 ^ (k + 3)) (n + 1), ?_, ?_, by simp [kBlocks], ?_, ?_, ?_⟩
    · rw [f1, Res.ok_bind]
      simp only []
      rw [if_neg (by omega), Int.toNat_natCast]
      unfold kSetHead
      rw [if_pos (by omega), Res.ok_bind]
      show (do
        let m ← kLink b1.heap.mem s.b.kbrk (2 ^ (k + 3)) n
        pure (KSt.setMem _ m)) = _
      rw [g1, Res.ok_bind]
      rfl
    · refine grown_inv I hp hk hfk ha (kBlocks_nodup (by omega)) ?_ ?_ f2 f3 (by omega) hp hph.1 (fun j hj => if_neg hj) ?_ ?_ ?_ ?_
      · intro h hh
        obtain ⟨i, h1, h2⟩ := mem_kBlocks.mp hh
        have hi : i * 2 ^ (k + 3) ≤ n * 2 ^ (k + 3) := Nat.mul_le_mul_right _ (by omega)
        have hc : n * 2 ^ (k + 3) = 2 ^ (k + 3) * n := Nat.mul_comm ..
        have hx : h + Spec.kSize k ≤ s.b.kbrk + amt := by
          rcases hn with rfl | hn
          · have : i = 0 := by omega
            subst this; omega
          · omega
        have m8 : i * 2 ^ (k + 3) % 8 = 0 := by rw [Nat.mul_mod, hal.1]; simp
        refine ⟨by omega, hx, by omega, fun hk1 => ?_⟩
        have m16 : i * 2 ^ (k + 3) % 16 = 0 := by rw [Nat.mul_mod, hal.2 hk1]; simp
        omega
      · intro h hh h' hh'
        obtain ⟨i, h1, h2⟩ := mem_kBlocks.mp hh
        obtain ⟨i', h1', h2'⟩ := mem_kBlocks.mp hh'
        rcases hn with rfl | hn
        · left
          have e1 : i = 0 := by omega
          have e2 : i' = 0 := by omega
          rw [h2, h2', e1, e2]
        · rcases Nat.lt_trichotomy i i' with hlt | heq | hlt
          · right; left
            have := Nat.mul_le_mul_right (2 ^ (k + 3)) (Nat.succ_le_of_lt hlt)
            rw [Nat.succ_mul] at this
            omega
          · left; rw [h2, h2', heq]
          · right; right
            have := Nat.mul_le_mul_right (2 ^ (k + 3)) (Nat.succ_le_of_lt hlt)
            rw [Nat.succ_mul] at this
            omega
      · show KChain m' (if k = k then s.b.kbrk else _) _
        rw [if_pos rfl]; exact g2
      · intro a h1 h2
        show m' a ≠ none
        apply g4
        by_cases h : a < s.b.kbrk
        · rw [hlow a h]; exact I.mapd a h1 (by omega)
        · rw [hfr a (by omega) h2]; simp
      · intro a h1 h2
        show m' a = _
        rw [g3 a (by omega)]
        exact hfr a (by omega) h2
      · intro a h
        show m' a = _
        rw [g3 a (by omega), hlow a h]
    · exact hp
    · show s.b.kbrk ≤ b1.kbrk ∧ b1.kbrk ≤ _
      omega
    · intro a h
      show m' a = _
      rw [g3 a (by omega), hlow a h]
  simp only [hp] at main
  by_cases h9 : k < 9
  · obtain ⟨q1, q2, q3, q4⟩ := small_blocks k h9
    rw [if_pos q2, if_pos q2]
    have e : Spec.kSize k = 2 ^ (k + 3) := if_pos (by omega)
    have h8 := kSize_pos k
    exact main 4096 (4096 / 2 ^ (k + 3) - 1) (by omega) (by omega) (by rw [e]; omega) (.inr e) (by omega) ⟨q4, q3⟩ (by omega)
  · obtain ⟨q1, q2, q3⟩ := large_blocks (by omega) hk
    rw [if_neg (by omega), if_neg (by omega)]
    have e : Spec.kSize k = 2 ^ (k + 3) + 4096 := if_neg (by omega)
    exact main (2 ^ (k + 3) + 4096) 0 (by omega) (by omega) (by omega) (.inl rfl) (by omega) ⟨by omega, fun _ => by omega⟩ (by omega)

/-! ### taking a block -/

theorem kHead_ok {s : KSt} {k : Nat} (h : k < 30) : kHead s k = .ok (s.nextf k) := if_pos h

theorem kSetHead_ok {s : KSt} {k p : Nat} (h : k < 30) :
    kSetHead s k p = .ok { s with nextf := fun j => if j = k then p else s.nextf j } := if_pos h

/-- The headers of two blocks do not meet. -/
theorem KInv.apart {K : BrkK} {s : KSt} {fl : Nat → List Nat} {lv : List (Nat × Nat × Nat)} (I : KInv K s fl lv) {h k h' k' : Nat}
    (h1 : KOwn fl lv h k) (h2 : KOwn fl lv h' k') (hne : h ≠ h') : h + 8 ≤ h' ∨ h' + 8 ≤ h := by
  have := kSize_pos k
  have := kSize_pos k'
  rcases I.disj h k h' k' h1 h2 with e | e
  · exact absurd e.1 hne
  · omega

theorem KInv.same {K : BrkK} {s : KSt} {fl : Nat → List Nat} {lv : List (Nat × Nat × Nat)} (I : KInv K s fl lv) {h k k' : Nat}
    (h1 : KOwn fl lv h k) (h2 : KOwn fl lv h k') : k = k' := by
  have := kSize_pos k
  have := kSize_pos k'
  rcases I.disj h k h k' h1 h2 with e | e
  · exact e.2
  · omega

theorem kPop {K : BrkK} (hK : K.Ok) {s : KSt} {fl : Nat → List Nat} {lv : List (Nat × Nat × Nat)} (I : KInv K s fl lv) {k n h : Nat} {t : List Nat}
    (hc : Spec.KClass n k) (hf : fl k = h :: t) :
    ∃ s', (do
        let nx ← loadP s.mem h
        let s ← kSetHead s k nx
        let m ← s.mem.store h 0xef#8
        let m ← m.store (h + 1) (BitVec.ofNat 8 k)
        pure (s.setMem m, h + 8) : Res (KSt × Nat)) = .ok (s', h + 8) ∧
      KInv K s' (fun j => if j = k then t else fl j) ((h, k, n) :: lv) ∧ s'.b.kbrk = s.b.kbrk ∧ s'.pagesz = s.pagesz ∧
      (∀ a, a ≠ h → a ≠ h + 1 → s'.mem a = s.mem a) := by
  have ho : KOwn fl lv h k := .inl (by rw [hf]; exact List.mem_cons_self ..)
  obtain ⟨o1, o2, o3, o4, o5⟩ := I.own h k ho
  have hk := kSize_pos k
  have hch := I.chain k
  rw [hf] at hch
  obtain ⟨_, q, c1, c2⟩ := hch
  have hq : q < 2 ^ 64 := by
    have := kchain_head c2
    cases t with
    | nil => simp at this; omega
    | cons x t =>
      simp at this
      have := (I.own x k (.inl (by rw [hf]; simp))).2.1
      have := I.bound
      omega
  have hup := le_pageUp s.b.kbrk
  obtain ⟨v0, hv0⟩ := Option.ne_none_iff_exists'.mp (I.mapd h o1 (by omega))
  obtain ⟨v1, hv1⟩ := Option.ne_none_iff_exists'.mp (I.mapd (h + 1) (by omega) (by omega))
  have hmem : ∀ a, a ≠ h → a ≠ h + 1 → ((s.mem.upd h 0xef#8).upd (h + 1) (BitVec.ofNat 8 k)) a = s.mem a := by
    intro a h1 h2
    rw [upd_ne h2, upd_ne h1]
  refine ⟨KSt.setMem { s with nextf := fun j => if j = k then q else s.nextf j } ((s.mem.upd h 0xef#8).upd (h + 1) (BitVec.ofNat 8 k)), ?_, ?_, rfl, rfl, hmem⟩
  · rw [loadP_holds c1 hq, Res.ok_bind, kSetHead_ok (by omega), Res.ok_bind]
    show (do
      let m ← s.mem.store h 0xef#8
      let m ← m.store (h + 1) (BitVec.ofNat 8 k)
      pure (KSt.setMem _ m, h + 8)) = _
    rw [store_some hv0, Res.ok_bind, store_some (show (s.mem.upd h 0xef#8) (h + 1) = some v1 by rw [upd_ne (by omega)]; exact hv1), Res.ok_bind]
    rfl
  · have hnd : (h :: t).Nodup := hf ▸ I.nodup k
    have hown : ∀ x j, KOwn (fun j => if j = k then t else fl j) ((h, k, n) :: lv) x j → KOwn fl lv x j := by
      rintro x j (hx | ⟨n', hx⟩)
      · by_cases hj : j = k
        · subst hj
          left; rw [hf]
          exact List.mem_cons_of_mem _ (by simpa using hx)
        · left; simpa [hj] using hx
      · rcases List.mem_cons.mp hx with e | e
        · simp only [Prod.mk.injEq] at e
          obtain ⟨rfl, rfl, _⟩ := e
          exact ho
        · exact .inr ⟨n', e⟩
    have hmn : ∀ a, s.mem a ≠ none → ((s.mem.upd h 0xef#8).upd (h + 1) (BitVec.ofNat 8 k)) a ≠ none := by
      intro a ha
      unfold Mem.upd
      split
      · simp
      · split
        · simp
        · exact ha
    refine ⟨I.cached, I.start, I.bound, fun a h1 h2 => hmn a (I.mapd a h1 h2), ?_, ?_, ?_, fun x j hx => I.own x j (hown x j hx),
      fun x j x' j' hx hx' => I.disj x j x' j' (hown x j hx) (hown x' j' hx'), ?_, ?_, ?_, ?_⟩
    · intro a h1 h2
      have h1' : s.b.kbrk ≤ a := h1
      show ((s.mem.upd h 0xef#8).upd (h + 1) (BitVec.ofNat 8 k)) a = _
      rw [hmem a (by omega) (by omega)]
      exact I.fresh a h1 h2
    · rcases I.phase with e | e
      · have := e.2.2.1 k
        rw [hf] at this; simp at this
      · exact .inr e
    · intro j
      show KChain ((s.mem.upd h 0xef#8).upd (h + 1) (BitVec.ofNat 8 k)) (if j = k then q else s.nextf j) (if j = k then t else fl j)
      by_cases hj : j = k
      · subst hj
        rw [if_pos rfl, if_pos rfl]
        refine kchain_congr c2 fun x hx a h1 h2 => ?_
        have hne : h ≠ x := fun e => (List.nodup_cons.mp hnd).1 (e ▸ hx)
        have := I.apart ho (.inl (by rw [hf]; exact List.mem_cons_of_mem _ hx) : KOwn fl lv x j) hne
        exact hmem a (by omega) (by omega)
      · rw [if_neg hj, if_neg hj]
        refine kchain_congr (I.chain j) fun x hx a h1 h2 => ?_
        have hne : h ≠ x := fun e => hj (I.same (.inl (e ▸ hx) : KOwn fl lv h j) ho)
        have := I.apart ho (.inl hx : KOwn fl lv x j) hne
        exact hmem a (by omega) (by omega)
    · intro j
      by_cases hj : j = k
      · subst hj; simpa using (List.nodup_cons.mp hnd).2
      · simp only [if_neg hj]; exact I.nodup j
    · intro x j k' n' hx hl
      have hx' : x ≠ h ∧ x ∈ fl j := by
        by_cases hj : j = k
        · subst hj
          have hx' : x ∈ t := by simpa using hx
          exact ⟨fun e => (List.nodup_cons.mp hnd).1 (e ▸ hx'), by rw [hf]; exact List.mem_cons_of_mem _ hx'⟩
        · simp only [if_neg hj] at hx
          exact ⟨fun e => hj (I.same (.inl (e ▸ hx) : KOwn fl lv h j) ho), hx⟩
      rcases List.mem_cons.mp hl with e | e
      · exact hx'.1 (congrArg Prod.fst e)
      · exact I.excl x j k' n' hx'.2 e
    · intro x j n' hl
      show ((s.mem.upd h 0xef#8).upd (h + 1) (BitVec.ofNat 8 k)) x = _ ∧ ((s.mem.upd h 0xef#8).upd (h + 1) (BitVec.ofNat 8 k)) (x + 1) = _ ∧ _
      rcases List.mem_cons.mp hl with e | e
      · simp only [Prod.mk.injEq] at e
        obtain ⟨rfl, rfl, rfl⟩ := e
        refine ⟨?_, ?_, hc⟩
        · rw [upd_ne (by omega), upd_same]
        · rw [upd_same]
      · have hne : h ≠ x := fun e' => I.excl h k j n' (by rw [hf]; exact List.mem_cons_self ..) (e' ▸ e)
        have := I.apart ho (.inr ⟨n', e⟩ : KOwn fl lv x j) hne
        rw [hmem x (by omega) (by omega), hmem (x + 1) (by omega) (by omega)]
        exact I.used x j n' e
    · rw [List.map_cons]
      refine List.nodup_cons.mpr ⟨?_, I.lnodup⟩
      intro hx
      obtain ⟨⟨x, k', n'⟩, h1, h2⟩ := List.mem_map.mp hx
      have h2' : x = h := h2
      subst h2'
      exact I.excl x k k' n' (by rw [hf]; exact List.mem_cons_self ..) h1

/-- A block from a list that is not empty. -/
theorem kTake_pop {K : BrkK} (hK : K.Ok) {s : KSt} {fl : Nat → List Nat} {lv : List (Nat × Nat × Nat)} (I : KInv K s fl lv) {k n h : Nat} {t : List Nat}
    (hc : Spec.KClass n k) (hf : fl k = h :: t) :
    ∃ s', kTake K s k = .ok (s', h + 8) ∧ KInv K s' (fun j => if j = k then t else fl j) ((h, k, n) :: lv) ∧ s'.b.kbrk = s.b.kbrk ∧
      s'.pagesz = s.pagesz ∧ (∀ a, a ≠ h → a ≠ h + 1 → s'.mem a = s.mem a) := by
  have ho : KOwn fl lv h k := .inl (by rw [hf]; exact List.mem_cons_self ..)
  obtain ⟨o1, o2, o3, o4, o5⟩ := I.own h k ho
  have hp := hK.pos
  have hh : s.nextf k = h := by
    have := I.chain k
    rw [hf] at this
    exact this.1
  obtain ⟨s', e1, e2⟩ := kPop hK I hc hf
  refine ⟨s', ?_, e2⟩
  unfold kTake
  rw [kHead_ok (by omega), Res.ok_bind, hh, if_neg (by omega), Res.pure_eq, Res.ok_bind, kHead_ok (by omega), Res.ok_bind, hh, if_neg (by omega)]
  exact e1

/-- A block in any case. -/
theorem kTake_spec {K : BrkK} (hK : K.Ok) {s : KSt} {fl : Nat → List Nat} {lv : List (Nat × Nat × Nat)} (I : KInv K s fl lv) (hp : s.pagesz = 4096)
    {k n : Nat} (hk : k ≤ 27) (hc : Spec.KClass n k) (hr : ∀ j, s.b.kbrk + 0x40002000 ≤ K.limit j) :
    ∃ s' h fl', kTake K s k = .ok (s', h + 8) ∧ KInv K s' fl' ((h, k, n) :: lv) ∧ s'.pagesz = 4096 ∧ (∀ j x, x ∈ fl j → (x = h ∧ j = k) ∨ x ∈ fl' j) ∧
      (s.b.kbrk ≤ s'.b.kbrk ∧ s'.b.kbrk ≤ s.b.kbrk + 0x40001000) ∧ (∀ a, a < s.b.kbrk → a ≠ h → a ≠ h + 1 → s'.mem a = s.mem a) := by
  cases hf : fl k with
  | cons h t =>
    obtain ⟨s', e1, e2, e3, e4, e5⟩ := kTake_pop hK I hc hf
    refine ⟨s', h, _, e1, e2, by omega, ?_, by omega, fun a _ => e5 a⟩
    intro j x hx
    by_cases hj : j = k
    · subst hj
      rw [hf] at hx
      rcases List.mem_cons.mp hx with e | e
      · exact .inl ⟨e, rfl⟩
      · right; simpa using e
    · right; simpa [hj] using hx
  | nil =>
    obtain ⟨s1, hs, m1, I1, m2, m3, m4, m5⟩ := morecore_spec hK I hp hk hf hr
    cases hs with
    | nil => exact absurd rfl m2
    | cons h t =>
      obtain ⟨s', e1, e2, e3, e4, e5⟩ := kTake_pop (n := n) (t := t) (h := h) hK I1 hc (by simp)
      refine ⟨s', h, _, ?_, e2, by omega, ?_, by omega, fun a h1 h2 h3 => ?_⟩
      · have hh : s.nextf k = 0 := by
          have := I.chain k
          rw [hf] at this
          exact this
        unfold kTake at e1 ⊢
        rw [kHead_ok (by omega), Res.ok_bind, hh, if_pos rfl, m1, Res.ok_bind]
        have ho := I1.own h k (.inl (by simp))
        have hpos := hK.pos
        have hh1 : s1.nextf k = h := by
          have := I1.chain k
          simp only [if_pos] at this
          exact this.1
        rw [kHead_ok (by omega), Res.ok_bind, hh1, if_neg (by omega), Res.pure_eq, Res.ok_bind] at e1
        rw [kHead_ok (by omega), Res.ok_bind] at e1 ⊢
        exact e1
      · intro j x hx
        by_cases hj : j = k
        · subst hj; rw [hf] at hx; simp at hx
        · right; simpa [hj] using hx
      · rw [e5 a h2 h3, m5 a h1]

/-- kmalloc of what can be met. -/
theorem kmalloc_spec {K : BrkK} (hK : K.Ok) {s : KSt} {fl : Nat → List Nat} {lv : List (Nat × Nat × Nat)} (I : KInv K s fl lv) (hr : KRoom K s.b)
    {nbytes : Int} (hn : nbytes ≤ (Spec.kMax : Nat)) :
    ∃ s' h k fl', kmalloc K s nbytes = .ok (s', h + 8) ∧ KInv K s' fl' ((h, k, nbytes.toNat) :: lv) ∧ (∀ j x, x ∈ fl j → (x = h ∧ j = k) ∨ x ∈ fl' j) ∧
      (s.b.kbrk ≤ s'.b.kbrk ∧ s'.b.kbrk ≤ s.b.kbrk + 0x40002000) ∧ (∀ a, a < s.b.kbrk → a ≠ h → a ≠ h + 1 → s'.mem a = s.mem a) := by
  have hmax : Spec.kMax = 1073745912 := by decide
  obtain ⟨s1, i1, I1, i2, i3, i4, i5, i6⟩ := kInit_spec hK I hr
  have hph : s1.pagebucket = 9 := by
    rcases I1.phase with h | h
    · omega
    · exact h.2.1
  obtain ⟨k, b1, b2, b3⟩ := kBucket_spec (nbytes := nbytes) i2 hph (by omega)
  have hk : k ≤ 27 := (class_le b3).mpr (by omega)
  obtain ⟨s', h, fl', t1, t2, t3, t4, t5, t6⟩ := kTake_spec hK I1 i2 hk b3 (fun j => by have := hr j; omega)
  refine ⟨s', h, k, fl', ?_, t2, t4, by omega, fun a h1 h2 h3 => by rw [t6 a (by omega) h2 h3, i6 a h1]⟩
  unfold kmalloc
  rw [i1, Res.ok_bind]
  simp only [if_true]
  rw [b1, Res.ok_bind]
  exact t1

/-- kmalloc of what can not. -/
theorem kmalloc_null {K : BrkK} (hK : K.Ok) {s : KSt} {fl : Nat → List Nat} {lv : List (Nat × Nat × Nat)} (I : KInv K s fl lv) (hr : KRoom K s.b)
    {nbytes : Int} (hn : (Spec.kMax : Nat) < nbytes) (hn2 : nbytes < 2147483648) :
    ∃ s', kmalloc K s nbytes = .ok (s', 0) ∧ KInv K s' fl lv ∧ s.b.kbrk ≤ s'.b.kbrk ∧ (∀ a, a < s.b.kbrk → s'.mem a = s.mem a) ∧ (s.pagesz = 4096 → s' = s) := by
  have hmax : Spec.kMax = 1073745912 := by decide
  obtain ⟨s1, i1, I1, i2, i3, i4, i5, i6⟩ := kInit_spec hK I hr
  have hph : s1.pagebucket = 9 := by
    rcases I1.phase with h | h
    · omega
    · exact h.2.1
  obtain ⟨k, b1, b2, b3⟩ := kBucket_spec (nbytes := nbytes) i2 hph hn2
  have hk : k = 28 := by
    have : ¬ k ≤ 27 := fun h => by have := (class_le b3).mp h; omega
    omega
  subst hk
  have hf : fl 28 = [] := by
    cases hf : fl 28 with
    | nil => rfl
    | cons h t => have := (I1.own h 28 (.inl (by rw [hf]; exact List.mem_cons_self ..))).2.2.2.2; omega
  have hh : s1.nextf 28 = 0 := by
    have := I1.chain 28
    rw [hf] at this
    exact this
  refine ⟨s1, ?_, I1, i4, i6, i5⟩
  unfold kmalloc
  rw [i1, Res.ok_bind]
  simp only [if_true]
  rw [b1, Res.ok_bind]
  show kTake K s1 28 = _
  unfold kTake
  rw [kHead_ok (by omega), Res.ok_bind, hh, if_pos rfl]
  unfold morecore
  rw [if_neg (by omega), if_pos (by omega), Res.pure_eq, Res.ok_bind, kHead_ok (by omega), Res.ok_bind, hh, if_pos rfl]
  rfl

/-! ### giving back -/

theorem byte_of_class {k : Nat} (h : k < 28) : (BitVec.ofNat 8 k).toNat = k := by
  rw [BitVec.toNat_ofNat]; omega

theorem kfree_spec {K : BrkK} {s : KSt} {fl : Nat → List Nat} {lv : List (Nat × Nat × Nat)} (I : KInv K s fl lv) {h k n : Nat}
    (hl : (h, k, n) ∈ lv) :
    ∃ s', kfree s (h + 8) = .ok s' ∧ KInv K s' (fun j => if j = k then h :: fl k else fl j) (lv.filter (fun x => x.1 ≠ h)) ∧ s'.b.kbrk = s.b.kbrk ∧
      s'.pagesz = s.pagesz ∧ (∀ a, a < h ∨ h + 8 ≤ a → s'.mem a = s.mem a) := by
  have ho : KOwn fl lv h k := .inr ⟨n, hl⟩
  obtain ⟨o1, o2, o3, o4, o5⟩ := I.own h k ho
  obtain ⟨u1, u2, u3⟩ := I.used h k n hl
  have hk := kSize_pos k
  have hup := le_pageUp s.b.kbrk
  have h8 : s.mem.Mapped h 8 := fun i hi => Option.ne_none_iff_exists'.mp (I.mapd (h + i) (by omega) (by omega))
  have hmem : ∀ a, a < h ∨ h + 8 ≤ a → (s.mem.write h (ptrBytes (s.nextf k))) a = s.mem a := fun a ha => write_outside _ _ _ _ ha
  refine ⟨{ (s.setMem (s.mem.write h (ptrBytes (s.nextf k)))) with nextf := fun j => if j = k then h else s.nextf j }, ?_, ?_, rfl, rfl, hmem⟩
  · unfold kfree
    rw [if_neg (by omega), if_neg (by omega), show h + 8 - 8 = h by omega, load_some u1, Res.ok_bind, if_neg (by simp), load_some u2, Res.ok_bind,
      byte_of_class o5, kHead_ok (by omega), Res.ok_bind, storeP_mapped h8, Res.ok_bind, kSetHead_ok (by omega)]
    rfl
  · have hown : ∀ x j, KOwn (fun j => if j = k then h :: fl k else fl j) (lv.filter (fun x => x.1 ≠ h)) x j → KOwn fl lv x j := by
      rintro x j (hx | ⟨n', hx⟩)
      · by_cases hj : j = k
        · subst hj
          simp only [if_pos] at hx
          rcases List.mem_cons.mp hx with e | e
          · subst e; exact ho
          · exact .inl e
        · left; simpa [hj] using hx
      · exact .inr ⟨n', (List.mem_filter.mp hx).1⟩
    have hmn : ∀ a, s.mem a ≠ none → (s.mem.write h (ptrBytes (s.nextf k))) a ≠ none := by
      intro a ha
      by_cases hh : a < h ∨ h + 8 ≤ a
      · rw [hmem a hh]; exact ha
      · obtain ⟨i, rfl⟩ : ∃ i, a = h + i := ⟨a - h, by omega⟩
        rw [write_inside _ _ _ i (by show i < 8; omega)]; simp
    have hnf : ∀ j, h ∉ fl j := fun j hx => I.excl h j k n hx hl
    refine ⟨I.cached, I.start, I.bound, fun a h1 h2 => hmn a (I.mapd a h1 h2), ?_, ?_, ?_, fun x j hx => I.own x j (hown x j hx),
      fun x j x' j' hx hx' => I.disj x j x' j' (hown x j hx) (hown x' j' hx'), ?_, ?_, ?_, ?_⟩
    · intro a h1 h2
      have h1' : s.b.kbrk ≤ a := h1
      show (s.mem.write h (ptrBytes (s.nextf k))) a = _
      rw [hmem a (by omega)]
      exact I.fresh a h1 h2
    · rcases I.phase with e | e
      · rw [e.2.2.2] at hl; simp at hl
      · exact .inr e
    · intro j
      show KChain (s.mem.write h (ptrBytes (s.nextf k))) (if j = k then h else s.nextf j) (if j = k then h :: fl k else fl j)
      have old : ∀ j, KChain (s.mem.write h (ptrBytes (s.nextf k))) (s.nextf j) (fl j) := by
        intro j
        refine kchain_congr (I.chain j) fun x hx a h1 h2 => ?_
        have := I.apart ho (.inl hx : KOwn fl lv x j) (fun e => hnf j (e ▸ hx))
        exact hmem a (by omega)
      by_cases hj : j = k
      · subst hj
        rw [if_pos rfl, if_pos rfl]
        exact ⟨rfl, s.nextf j, write_holds _ _ _, old j⟩
      · rw [if_neg hj, if_neg hj]
        exact old j
    · intro j
      by_cases hj : j = k
      · subst hj
        simp only [if_pos]
        exact List.nodup_cons.mpr ⟨hnf j, I.nodup j⟩
      · simp only [if_neg hj]; exact I.nodup j
    · intro x j k' n' hx hl'
      obtain ⟨l1, l2⟩ := List.mem_filter.mp hl'
      have l2' : x ≠ h := by simpa using l2
      by_cases hj : j = k
      · subst hj
        simp only [if_pos] at hx
        rcases List.mem_cons.mp hx with e | e
        · exact l2' e
        · exact I.excl x j k' n' e l1
      · simp only [if_neg hj] at hx
        exact I.excl x j k' n' hx l1
    · intro x j n' hl'
      obtain ⟨l1, l2⟩ := List.mem_filter.mp hl'
      have l2' : x ≠ h := by simpa using l2
      have := I.apart ho (.inr ⟨n', l1⟩ : KOwn fl lv x j) (fun e => l2' e.symm)
      show (s.mem.write h (ptrBytes (s.nextf k))) x = _ ∧ (s.mem.write h (ptrBytes (s.nextf k))) (x + 1) = _ ∧ _
      rw [hmem x (by omega), hmem (x + 1) (by omega)]
      exact I.used x j n' l1
    · exact List.Nodup.sublist (List.Sublist.map _ List.filter_sublist) I.lnodup

/-- The first byte of a free block is not the magic number. -/
theorem free_magic {K : BrkK} {s : KSt} {fl : Nat → List Nat} {lv : List (Nat × Nat × Nat)} (I : KInv K s fl lv) {k : Nat} :
    ∀ (l : List Nat) (p : Nat), KChain s.mem p l → (∀ x ∈ l, x ∈ fl k) → ∀ h ∈ l, ∃ b, s.mem h = some b ∧ b ≠ 0xef#8 := by
  intro l
  induction l with
  | nil => intro p _ _ h hh; simp at hh
  | cons x xs ih =>
    intro p hc hl h hh
    obtain ⟨_, q, c1, c2⟩ := hc
    rcases List.mem_cons.mp hh with rfl | hh
    · have h0 := c1 0 (by show 0 < 8; omega)
      refine ⟨BitVec.ofNat 8 q, h0, ptr_low ?_⟩
      have := kchain_head c2
      cases xs with
      | nil => simp at this; omega
      | cons y ys =>
        simp at this
        subst this
        exact (I.own q k (.inl (hl q (by simp)))).2.2.1
    · exact ih q c2 (fun y hy => hl y (List.mem_cons_of_mem _ hy)) h hh

theorem kfree_again {K : BrkK} {s : KSt} {fl : Nat → List Nat} {lv : List (Nat × Nat × Nat)} (I : KInv K s fl lv) {h k : Nat}
    (hh : h ∈ fl k) : kfree s (h + 8) = .ok s := by
  obtain ⟨b, e1, e2⟩ := free_magic I (k := k) (fl k) _ (I.chain k) (fun _ hx => hx) h hh
  unfold kfree
  rw [if_neg (by omega), if_neg (by omega), show h + 8 - 8 = h by omega, load_some e1, Res.ok_bind, if_pos e2]
  rfl

/-! ### the contents -/

/-- Writing into a block in use. -/
theorem KInv.data {K : BrkK} {s : KSt} {fl : Nat → List Nat} {lv : List (Nat × Nat × Nat)} (I : KInv K s fl lv) {h k n : Nat}
    (hl : (h, k, n) ∈ lv) {m : Mem} (hm : ∀ a, a < h + 8 ∨ h + Spec.kSize k ≤ a → m a = s.mem a) (hn : ∀ a, s.mem a ≠ none → m a ≠ none) :
    KInv K (s.setMem m) fl lv := by
  have ho : KOwn fl lv h k := .inr ⟨n, hl⟩
  obtain ⟨o1, o2, o3, o4, o5⟩ := I.own h k ho
  have key : ∀ x j, KOwn fl lv x j → ∀ a, x ≤ a → a < x + 8 → m a = s.mem a := by
    intro x j hx a h1 h2
    have := kSize_pos j
    apply hm
    rcases I.disj h k x j ho hx with e | e
    · omega
    · omega
  refine ⟨I.cached, I.start, I.bound, fun a h1 h2 => hn a (I.mapd a h1 h2), ?_, I.phase, ?_, I.own, I.disj, I.nodup, I.excl, ?_, I.lnodup⟩
  · intro a h1 h2
    have h1' : s.b.kbrk ≤ a := h1
    show m a = _
    rw [hm a (by omega)]
    exact I.fresh a h1 h2
  · intro j
    exact kchain_congr (I.chain j) fun x hx => key x j (.inl hx)
  · intro x j n' hx
    show m x = _ ∧ m (x + 1) = _ ∧ _
    rw [key x j (.inr ⟨n', hx⟩) x (by omega) (by omega), key x j (.inr ⟨n', hx⟩) (x + 1) (by omega) (by omega)]
    exact I.used x j n' hx

/-- The same block with another size of its class. -/
theorem KInv.resize {K : BrkK} {s : KSt} {fl : Nat → List Nat} {lv : List (Nat × Nat × Nat)} (I : KInv K s fl lv) {h k n n' : Nat}
    (hl : (h, k, n) ∈ lv) (hc : Spec.KClass n' k) : KInv K s fl ((h, k, n') :: lv.filter (fun x => x.1 ≠ h)) := by
  have ho : KOwn fl lv h k := .inr ⟨n, hl⟩
  have hown : ∀ x j, KOwn fl ((h, k, n') :: lv.filter (fun x => x.1 ≠ h)) x j → KOwn fl lv x j := by
    rintro x j (hx | ⟨n1, hx⟩)
    · exact .inl hx
    · rcases List.mem_cons.mp hx with e | e
      · simp only [Prod.mk.injEq] at e
        obtain ⟨rfl, rfl, _⟩ := e
        exact ho
      · exact .inr ⟨n1, (List.mem_filter.mp e).1⟩
  refine ⟨I.cached, I.start, I.bound, I.mapd, I.fresh, ?_, I.chain, fun x j hx => I.own x j (hown x j hx),
    fun x j x' j' hx hx' => I.disj x j x' j' (hown x j hx) (hown x' j' hx'), I.nodup, ?_, ?_, ?_⟩
  · rcases I.phase with e | e
    · rw [e.2.2.2] at hl; simp at hl
    · exact .inr e
  · intro x j k' n1 hx hh
    rcases List.mem_cons.mp hh with e | e
    · simp only [Prod.mk.injEq] at e
      obtain ⟨rfl, rfl, _⟩ := e
      exact I.excl x j k' n hx hl
    · exact I.excl x j k' n1 hx (List.mem_filter.mp e).1
  · intro x j n1 hh
    rcases List.mem_cons.mp hh with e | e
    · simp only [Prod.mk.injEq] at e
      obtain ⟨rfl, rfl, rfl⟩ := e
      have := I.used x j n hl
      exact ⟨this.1, this.2.1, hc⟩
    · exact I.used x j n1 (List.mem_filter.mp e).1
  · rw [List.map_cons]
    refine List.nodup_cons.mpr ⟨?_, List.Nodup.sublist (List.Sublist.map _ List.filter_sublist) I.lnodup⟩
    intro hx
    obtain ⟨y, h1, h2⟩ := List.mem_map.mp hx
    have := (List.mem_filter.mp h1).2
    simp at this
    exact this h2

theorem lv_unique {K : BrkK} {s : KSt} {fl : Nat → List Nat} {lv : List (Nat × Nat × Nat)} (I : KInv K s fl lv) {h k n k' n' : Nat}
    (h1 : (h, k, n) ∈ lv) (h2 : (h, k', n') ∈ lv) : k = k' ∧ n = n' := by
  have key : ∀ l : List (Nat × Nat × Nat), (l.map (·.1)).Nodup → ∀ x ∈ l, ∀ y ∈ l, x.1 = y.1 → x = y := by
    intro l
    induction l with
    | nil => intro _ x hx; simp at hx
    | cons a l ih =>
      intro hn x hx y hy e
      rw [List.map_cons] at hn
      obtain ⟨n1, n2⟩ := List.nodup_cons.mp hn
      rcases List.mem_cons.mp hx with ex | hx1 <;> rcases List.mem_cons.mp hy with ey | hy1
      · rw [ex, ey]
      · subst ex; exact (n1 (List.mem_map.mpr ⟨y, hy1, e.symm⟩)).elim
      · subst ey; exact (n1 (List.mem_map.mpr ⟨x, hx1, e⟩)).elim
      · exact ih n2 x hx1 y hy1 e
  have := key lv I.lnodup _ h1 _ h2 rfl
  simp only [Prod.mk.injEq] at this
  exact this.2

theorem cutInt_nat {n : Nat} (h : n < 2147483648) : cutInt (n : Int) = n := by
  unfold cutInt
  rw [BitVec.toInt_ofInt, Int.bmod_def]
  have e : (2 : Int) ^ 32 = 4294967296 := by decide
  have e2 : ((2 ^ 32 : Nat) : Int) = 4294967296 := by decide
  rw [e2]
  omega

theorem memcpy_eq' {m : Mem} {d s : Nat} {l : List Byte} (h : m.Holds s l) (hd : m.Mapped d l.length) (ho : Spec.Disjoint d l.length s l.length) :
    memcpy m d s (l.length : Int) = .ok (m.write d l, d) := by
  have := memcpyLoop_eq (a := 0) (k := 0) h hd ho (by omega) (by omega)
  simp only [List.take_zero, write_nil] at this
  rw [memcpy, this]; rfl

theorem kBytes_eq {s : KSt} (hp : s.pagesz = 4096) {k : Nat} (hk : k < 28) : shl1 (k + 3) = .ok ((2 ^ (k + 3) : Nat) : Int) ∧
    kBytes s ((2 ^ (k + 3) : Nat) : Int) = (Spec.kSize k : Int) - 8 := by
  refine ⟨if_pos (by omega), ?_⟩
  unfold kBytes Spec.kSize
  rw [hp]
  by_cases h : k ≤ 8
  · have : 2 ^ (k + 3) ≤ 2 ^ 11 := Nat.pow_le_pow_right (by omega) (by omega)
    rw [if_pos (by omega), if_pos h]
  · have : 2 ^ 12 ≤ 2 ^ (k + 3) := Nat.pow_le_pow_right (by omega) (by omega)
    rw [if_neg (by omega), if_neg h]
    omega

theorem bytes_at {m : Mem} {p n : Nat} (h : m.Mapped p n) : ∃ l : List Byte, l.length = n ∧ m.Holds p l := by
  induction n generalizing p with
  | zero => exact ⟨[], rfl, holds_nil m p⟩
  | succ n ih =>
    obtain ⟨⟨b, hb⟩, h2⟩ := mapped_succ.mp h
    obtain ⟨l, h3, h4⟩ := ih h2
    exact ⟨b :: l, by simp [h3], holds_cons.mpr ⟨hb, h4⟩⟩

/-- Resizing a block in use. -/
theorem krealloc_spec {K : BrkK} (hK : K.Ok) {s : KSt} {fl : Nat → List Nat} {lv : List (Nat × Nat × Nat)} (I : KInv K s fl lv) (hr : KRoom K s.b)
    {h k n n' : Nat} (hl : (h, k, n) ∈ lv) (h1 : 1 ≤ n') (h2 : n' ≤ Spec.kMax) :
    ∃ s' h' k' fl', krealloc K s (h + 8) n' = .ok (s', h' + 8) ∧ KInv K s' fl' ((h', k', n') :: lv.filter (fun x => x.1 ≠ h)) ∧
      (∀ i, i < n → i < n' → s'.mem (h' + 8 + i) = s.mem (h + 8 + i)) ∧
      (∀ x j b, (x, j, b) ∈ lv → x ≠ h → ∀ i, i < b → s'.mem (x + 8 + i) = s.mem (x + 8 + i)) ∧
      ((h' = h ∧ fl' = fl) ∨ (h' ≠ h ∧ h ∈ fl' k ∧ ∀ j x, x ∈ fl j → x = h' ∨ x ∈ fl' j)) ∧ s.b.kbrk ≤ s'.b.kbrk := by
  have hmax : Spec.kMax = 1073745912 := by decide
  have ho : KOwn fl lv h k := .inr ⟨n, hl⟩
  obtain ⟨o1, o2, o3, o4, o5⟩ := I.own h k ho
  obtain ⟨u1, u2, u3⟩ := I.used h k n hl
  have hp : s.pagesz = 4096 := by
    rcases I.phase with e | e
    · rw [e.2.2.2] at hl; simp at hl
    · exact e.1
  obtain ⟨y1, y2⟩ := kBytes_eq hp o5
  have hks := kSize_pos k
  have lo : ∃ lo : Int, (if k ≠ 0 then do
          let y ← shl1 (k + 2)
          pure (kBytes s y)
        else pure 0 : Res Int) = .ok lo ∧ ((((n' : Int) ≤ (Spec.kSize k : Int) - 8) ∧ lo < n') ↔ Spec.KClass n' k) := by
    by_cases h0 : k = 0
    · subst h0
      refine ⟨0, by rw [if_neg (by omega)]; rfl, ?_⟩
      have e0 : Spec.kSize 0 = 8 := by decide
      rw [e0]
      constructor
      · intro h; omega
      · intro h; have := h.1; omega
    · obtain ⟨z1, z2⟩ := kBytes_eq (k := k - 1) hp (by omega)
      rw [show k - 1 + 3 = k + 2 by omega] at z1 z2
      refine ⟨_, by rw [if_pos h0, z1, Res.ok_bind, z2]; rfl, ?_⟩
      constructor
      · rintro ⟨a1, a2⟩
        refine ⟨by omega, fun j hj => ?_⟩
        have := kSize_mono (j := j) (k := k - 1) (by omega)
        omega
      · rintro ⟨a1, a2⟩
        have := a2 (k - 1) (by omega)
        omega
  obtain ⟨lo, l1, l2⟩ := lo
  have start : krealloc K s (h + 8) n' = if (n' : Int) ≤ (Spec.kSize k : Int) - 8 ∧ lo < n' then pure (s, h + 8) else
      (kfree s (h + 8)).bind fun s => kMove K s (h + 8) n' ((Spec.kSize k : Int) - 8) := by
    unfold krealloc
    rw [if_neg (by omega), if_neg (by omega), if_neg (by omega), show h + 8 - 8 = h by omega]
    have eo : kOld s h = .ok (true, k) := by
      unfold kOld
      rw [load_some u1, Res.ok_bind, if_pos rfl, load_some u2, Res.ok_bind, byte_of_class o5]
      rfl
    rw [eo, Res.ok_bind]
    simp only [if_true]
    rw [y1, Res.ok_bind, l1, Res.ok_bind, y2]
    rfl
  by_cases hc : Spec.KClass n' k
  · rw [start, if_pos (l2.mpr hc)]
    exact ⟨s, h, k, fl, rfl, I.resize hl hc, fun _ _ _ => rfl, fun _ _ _ _ _ _ _ => rfl, .inl ⟨rfl, rfl⟩, Nat.le_refl _⟩
  · rw [start, if_neg (fun e => hc (l2.mp e))]
    obtain ⟨s1, f1, I1, f2, f3, f4⟩ := kfree_spec I hl
    have hr1 : KRoom K s1.b := fun j => by rw [f2]; exact hr j
    obtain ⟨s2, h', k', fl', g1, I2, g2, g3, g4⟩ := kmalloc_spec hK I1 hr1 (nbytes := n') (by omega)
    rw [Int.toNat_natCast] at I2
    have hc' : Spec.KClass n' k' := (I2.used h' k' n' (by simp)).2.2
    have hkk : k ≠ k' := fun e => hc (e ▸ hc')
    -- the old block is still free
    have hfree : h ∈ fl' k := by
      rcases g2 k h (by simp) with e | e
      · exact absurd e.2 hkk
      · exact e
    have hne : h' ≠ h := by
      intro e
      exact I2.excl h k k' n' hfree (e ▸ by simp)
    have ho2 : KOwn fl' ((h', k', n') :: lv.filter (fun x => x.1 ≠ h)) h' k' := .inr ⟨n', by simp⟩
    have hd : h + Spec.kSize k ≤ h' ∨ h' + Spec.kSize k' ≤ h := by
      rcases I2.disj h k h' k' (.inl hfree) ho2 with e | e
      · exact absurd e.1.symm hne
      · exact e
    obtain ⟨w1, w2, w3, w4, w5⟩ := I2.own h' k' ho2
    have hup := le_pageUp s2.b.kbrk
    have hks' := kSize_pos k'
    have hfit := hc'.1
    -- the bytes of the old block
    have hkeep : ∀ a, h + 8 ≤ a → a < h + Spec.kSize k → s2.mem a = s.mem a := by
      intro a a1 a2
      rw [g4 a (by omega) (by omega) (by omega), f4 a (by omega)]
    obtain ⟨l, ll, lh⟩ := bytes_at (m := s2.mem) (p := h + 8) (n := min n' (Spec.kSize k - 8)) (fun i hi =>
      Option.ne_none_iff_exists'.mp (I2.mapd _ (by omega) (by omega)))
    have hmap : s2.mem.Mapped (h' + 8) l.length := fun i hi => Option.ne_none_iff_exists'.mp (I2.mapd _ (by omega) (by omega))
    have hcp := memcpy_eq' lh hmap (by intro a; omega)
    have hmem : ∀ a, a < h' + 8 ∨ h' + Spec.kSize k' ≤ a → (s2.mem.write (h' + 8) l) a = s2.mem a := by
      intro a ha
      exact write_outside _ _ _ _ (by omega)
    have I3 := I2.data (h := h') (k := k') (n := n') (by simp) (m := s2.mem.write (h' + 8) l) hmem (fun a ha => by
      by_cases hh : a < h' + 8 ∨ h' + 8 + l.length ≤ a
      · rw [write_outside _ _ _ _ hh]; exact ha
      · obtain ⟨i, rfl⟩ : ∃ i, a = h' + 8 + i := ⟨a - (h' + 8), by omega⟩
        rw [write_inside _ _ _ i (by omega)]; simp)
    refine ⟨_, h', k', fl', ?_, I3, ?_, ?_, .inr ⟨hne, hfree, ?_⟩, ?_⟩
    · rw [f1]
      show kMove K s1 (h + 8) n' ((Spec.kSize k : Int) - 8) = _
      unfold kMove
      rw [cutInt_nat (by omega), g1, Res.ok_bind]
      simp only []
      rw [if_neg (by omega), if_pos (by omega)]
      have e : (if (n' : Int) < (Spec.kSize k : Int) - 8 then (n' : Int) else (Spec.kSize k : Int) - 8) = (l.length : Int) := by
        rw [ll]; split <;> omega
      rw [e, hcp]
      rfl
    · intro i i1 i2
      show (s2.mem.write (h' + 8) l) (h' + 8 + i) = _
      have hu := u3.1
      rw [write_inside _ _ _ i (by omega), ← lh i (by omega), hkeep _ (by omega) (by omega)]
    · intro x j b hx hxh i hi
      show (s2.mem.write (h' + 8) l) (x + 8 + i) = _
      have hx1 : (x, j, b) ∈ lv.filter (fun x => x.1 ≠ h) := List.mem_filter.mpr ⟨hx, by simpa using hxh⟩
      have hub := (I.used x j b hx).2.2.1
      have hox := (I.own x j (.inr ⟨b, hx⟩)).2.1
      have hxne : x ≠ h' := by
        intro e
        have := I2.lnodup
        rw [List.map_cons] at this
        exact (List.nodup_cons.mp this).1 (List.mem_map.mpr ⟨_, hx1, e⟩)
      have d1 : x + Spec.kSize j ≤ h' ∨ h' + Spec.kSize k' ≤ x := by
        rcases I2.disj x j h' k' (.inr ⟨b, List.mem_cons_of_mem _ hx1⟩) ho2 with e | e
        · exact absurd e.1 hxne
        · exact e
      have d2 : x + Spec.kSize j ≤ h ∨ h + Spec.kSize k ≤ x := by
        rcases I.disj x j h k (.inr ⟨b, hx⟩) ho with e | e
        · exact absurd e.1 hxh
        · exact e
      rw [hmem _ (by omega), g4 _ (by omega) (by omega) (by omega), f4 _ (by omega)]
    · intro j x hx
      rcases g2 j x (by by_cases hj : j = k
                        · subst hj; simp [hx]
                        · simpa [hj] using hx) with e | e
      · exact .inl e.1
      · exact .inr e
    · show s.b.kbrk ≤ s2.b.kbrk
      omega

/-! ### histories -/

/-- A program and its blocks. -/
structure KLinked (K : BrkK) (c : KClient) (fl : Nat → List Nat) (lv : List (Nat × Nat × Nat)) : Prop where
  inv : KInv K c.st fl lv
  live : c.live = lv.map (fun x => (x.1 + 8, x.2.2))
  kept : ∀ p n, (p, n) ∈ c.live → ∀ i, i < n → ∀ b, c.shadow (p + i) = some b → c.st.mem (p + i) = some b
  freed : ∀ p, p ∈ c.freed → ∃ h k, p = h + 8 ∧ h ∈ fl k

theorem live_mem {c : KClient} {lv : List (Nat × Nat × Nat)} (e : c.live = lv.map (fun x => (x.1 + 8, x.2.2))) {p n : Nat} (h : (p, n) ∈ c.live) :
    ∃ x k, p = x + 8 ∧ (x, k, n) ∈ lv := by
  rw [e] at h
  obtain ⟨⟨x, k, n'⟩, h1, h2⟩ := List.mem_map.mp h
  simp only [Prod.mk.injEq] at h2
  obtain ⟨rfl, rfl⟩ := h2
  exact ⟨x, k, rfl, h1⟩

theorem live_filter {lv : List (Nat × Nat × Nat)} (h : Nat) :
    (lv.map (fun x => (x.1 + 8, x.2.2))).filter (fun b => b.1 ≠ h + 8) = (lv.filter (fun x => x.1 ≠ h)).map (fun x => (x.1 + 8, x.2.2)) := by
  induction lv with
  | nil => rfl
  | cons a l ih =>
    rw [List.map_cons, List.filter_cons, List.filter_cons]
    by_cases e : a.1 = h
    · rw [if_neg (by simp [e]), if_neg (by simp [e])]; exact ih
    · rw [if_pos (by simp [e]), if_pos (by simp [e]), List.map_cons, ih]

/-- Two blocks in use are apart. -/
theorem KInv.apart_live {K : BrkK} {s : KSt} {fl : Nat → List Nat} {lv : List (Nat × Nat × Nat)} (I : KInv K s fl lv) {h k n h' k' n' : Nat}
    (h1 : (h, k, n) ∈ lv) (h2 : (h', k', n') ∈ lv) (hne : h ≠ h') : h + 8 + n ≤ h' ∨ h' + 8 + n' ≤ h := by
  have := (I.used h k n h1).2.2.1
  have := (I.used h' k' n' h2).2.2.1
  rcases I.disj h k h' k' (.inr ⟨n, h1⟩) (.inr ⟨n', h2⟩) with e | e
  · exact absurd e.1 hne
  · omega

theorem kreach_linked {K : BrkK} (hK : K.Ok) {h₀ : Heap} {c : KClient} (r : KReach K h₀ c) : ∃ fl lv, KLinked K c fl lv := by
  induction r with
  | init => exact ⟨_, _, KInv.init hK h₀, rfl, fun p n h => by simp at h, fun p h => by simp at h⟩
  | @alloc c s p n _ hr hn e ih =>
    obtain ⟨fl, lv, L⟩ := ih
    obtain ⟨s', h, k, fl', e1, I', g, _, f⟩ := kmalloc_spec hK L.inv hr (nbytes := n) (by omega)
    rw [e1] at e
    simp only [Res.ok.injEq, Prod.mk.injEq] at e
    obtain ⟨rfl, rfl⟩ := e
    rw [Int.toNat_natCast] at I'
    refine ⟨fl', _, I', by simp only [List.map_cons, L.live], ?_, ?_⟩
    · intro q b hq i hi v hv
      simp only [forget] at hv
      rcases List.mem_cons.mp hq with e | e
      · simp only [Prod.mk.injEq] at e
        obtain ⟨rfl, rfl⟩ := e
        rw [if_pos (by omega)] at hv
        exact absurd hv (by simp)
      · split at hv
        · exact absurd hv (by simp)
        · obtain ⟨x, j, rfl, hx⟩ := live_mem L.live e
          have hne : h ≠ x := by
            intro e'
            have := I'.lnodup
            rw [List.map_cons] at this
            exact (List.nodup_cons.mp this).1 (List.mem_map.mpr ⟨_, hx, e'.symm⟩)
          have hxx := I'.disj h k x j (.inr ⟨n, by simp⟩) (.inr ⟨b, List.mem_cons_of_mem _ hx⟩)
          have := (L.inv.used x j b hx).2.2.1
          have := (L.inv.own x j (.inr ⟨b, hx⟩)).2.1
          have := kSize_pos k
          show s'.mem (x + 8 + i) = some v
          rw [f _ (by omega) (by omega) (by omega)]
          exact L.kept _ b e i hi v hv
    · intro q hq
      obtain ⟨q1, q2⟩ := List.mem_filter.mp hq
      obtain ⟨x, j, rfl, hx⟩ := L.freed q q1
      rcases g j x hx with e | e
      · simp [e.1] at q2
      · exact ⟨x, j, rfl, e⟩
  | @refused c s p n _ hr hn hn2 e ih =>
    obtain ⟨fl, lv, L⟩ := ih
    obtain ⟨s', e1, I', _, f, _⟩ := kmalloc_null hK L.inv hr (nbytes := n) (by omega) (by omega)
    rw [e1] at e
    simp only [Res.ok.injEq, Prod.mk.injEq] at e
    obtain ⟨rfl, rfl⟩ := e
    refine ⟨fl, lv, I', L.live, ?_, L.freed⟩
    intro q b hq i hi v hv
    obtain ⟨x, j, rfl, hx⟩ := live_mem L.live hq
    have := (L.inv.used x j b hx).2.2.1
    have := (L.inv.own x j (.inr ⟨b, hx⟩)).2.1
    show s'.mem (x + 8 + i) = some v
    rw [f _ (by omega)]
    exact L.kept _ b hq i hi v hv
  | @free c s p n _ hl e ih =>
    obtain ⟨fl, lv, L⟩ := ih
    obtain ⟨h, k, rfl, hh⟩ := live_mem L.live hl
    obtain ⟨s', e1, I', _, _, f⟩ := kfree_spec L.inv hh
    rw [e1] at e
    simp only [Res.ok.injEq] at e
    subst e
    refine ⟨_, _, I', by simp only [L.live]; exact live_filter h, ?_, ?_⟩
    · intro q b hq i hi v hv
      obtain ⟨q1, q2⟩ := List.mem_filter.mp hq
      obtain ⟨x, j, rfl, hx⟩ := live_mem L.live q1
      have hne : h ≠ x := by
        intro e
        simp [e] at q2
      have := L.inv.apart_live hh hx hne
      show s'.mem (x + 8 + i) = some v
      have := (L.inv.apart (.inr ⟨n, hh⟩ : KOwn fl lv h k) (.inr ⟨b, hx⟩ : KOwn fl lv x j) hne)
      rw [f _ (by omega)]
      exact L.kept _ b q1 i hi v hv
    · intro q hq
      rcases List.mem_cons.mp hq with rfl | hq
      · exact ⟨h, k, rfl, by simp⟩
      · obtain ⟨x, j, rfl, hx⟩ := L.freed q hq
        refine ⟨x, j, rfl, ?_⟩
        by_cases hj : j = k
        · subst hj; simp [hx]
        · simpa [hj] using hx
  | @again c s p _ hp e ih =>
    obtain ⟨fl, lv, L⟩ := ih
    obtain ⟨h, k, rfl, hh⟩ := L.freed p hp
    rw [kfree_again L.inv hh] at e
    simp only [Res.ok.injEq] at e
    subst e
    exact ⟨fl, lv, L.inv, L.live, L.kept, L.freed⟩
  | @resize c s p q n n' _ hr hl h1 h2 e ih =>
    obtain ⟨fl, lv, L⟩ := ih
    obtain ⟨h, k, rfl, hh⟩ := live_mem L.live hl
    obtain ⟨s', h', k', fl', e1, I', f1, f2, f3, _⟩ := krealloc_spec hK L.inv hr hh h1 h2
    rw [e1] at e
    simp only [Res.ok.injEq, Prod.mk.injEq] at e
    obtain ⟨rfl, rfl⟩ := e
    refine ⟨fl', _, I', by simp only [List.map_cons, L.live]; rw [live_filter h], ?_, ?_⟩
    · intro q b hq i hi v hv
      simp only [] at hv
      rcases List.mem_cons.mp hq with e | e
      · simp only [Prod.mk.injEq] at e
        obtain ⟨rfl, rfl⟩ := e
        rw [if_pos (by omega)] at hv
        split at hv
        · next hlt =>
          rw [show h' + 8 + i - (h' + 8) + (h + 8) = h + 8 + i by omega] at hv
          show s'.mem (h' + 8 + i) = some v
          rw [f1 i (by omega) hi]
          exact L.kept _ n hl i (by omega) v hv
        · exact absurd hv (by simp)
      · obtain ⟨q1, q2⟩ := List.mem_filter.mp e
        obtain ⟨x, j, rfl, hx⟩ := live_mem L.live q1
        have hne : x ≠ h := by
          intro e
          simp [e] at q2
        have hx1 : (x, j, b) ∈ lv.filter (fun x => x.1 ≠ h) := List.mem_filter.mpr ⟨hx, by simpa using hne⟩
        have hne2 : h' ≠ x := by
          intro e'
          have := I'.lnodup
          rw [List.map_cons] at this
          exact (List.nodup_cons.mp this).1 (List.mem_map.mpr ⟨_, hx1, e'.symm⟩)
        have := I'.apart_live (h := h') (k := k') (n := n') (by simp) (List.mem_cons_of_mem _ hx1) hne2
        rw [if_neg (by omega)] at hv
        show s'.mem (x + 8 + i) = some v
        rw [f2 x j b hx hne i hi]
        exact L.kept _ b q1 i hi v hv
    · intro q hq
      rcases f3 with ⟨e1, e2⟩ | ⟨e1, e2, e3⟩
      · rw [if_pos (by omega)] at hq
        obtain ⟨x, j, rfl, hx⟩ := L.freed q hq
        exact ⟨x, j, rfl, e2 ▸ hx⟩
      · rw [if_neg (by omega)] at hq
        rcases List.mem_cons.mp hq with rfl | hq
        · exact ⟨h, k, rfl, e2⟩
        · obtain ⟨q1, q2⟩ := List.mem_filter.mp hq
          obtain ⟨x, j, rfl, hx⟩ := L.freed q q1
          rcases e3 j x hx with e | e
          · simp [e] at q2
          · exact ⟨x, j, rfl, e⟩
  | @store c p n i b _ hl hi ih =>
    obtain ⟨fl, lv, L⟩ := ih
    obtain ⟨h, k, rfl, hh⟩ := live_mem L.live hl
    have hfit := (L.inv.used h k n hh).2.2.1
    have I' := L.inv.data hh (m := c.st.mem.upd (h + 8 + i) b) (fun a ha => upd_ne (by omega)) (fun a ha => by
      unfold Mem.upd
      split
      · simp
      · exact ha)
    refine ⟨fl, lv, I', L.live, ?_, L.freed⟩
    intro q b' hq j hj v hv
    show (c.st.mem.upd (h + 8 + i) b) (q + j) = some v
    simp only [Mem.upd] at hv ⊢
    split
    · next e => rw [if_pos e] at hv; exact hv
    · next e => rw [if_neg e] at hv; exact L.kept q b' hq j hj v hv

end Minilib

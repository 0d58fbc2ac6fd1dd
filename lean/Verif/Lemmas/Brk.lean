import Verif.Spec.Brk
import Verif.Lemmas.Malloc
/-
The chain of blocks on the data segment, and what each call does to it.
-/

set_option autoImplicit false

namespace Minilib
open Mem

/-- Header of a block of `n` bytes (with the header). -/
def bhdr (n : Nat) (fr : Bool) : BitVec 32 := MALLOC_BRK ||| BitVec.ofNat 32 n ||| (if fr then MBUF_FREE else 0#32)

theorem ofNat_and_BRK {n : Nat} (h : n < 2 ^ 28) : BitVec.ofNat 32 n &&& MALLOC_BRK = 0#32 := by
  have := ofNat_and_flag h 28 (by omega)
  have e : (1#32 <<< 28) = MALLOC_BRK := by decide
  first
  | exact this
  | (rw [← e]; exact this)
  | simpa [e] using this

theorem bhdr_BRK {n : Nat} (h : n < 2 ^ 28) (fr : Bool) : bhdr n fr &&& MALLOC_BRK = MALLOC_BRK := by
  rw [bhdr, bv_or_and, bv_or_and, ofNat_and_BRK h]
  cases fr <;> decide

theorem bhdr_V {n : Nat} (h : n < 2 ^ 28) (fr : Bool) : (bhdr n fr &&& MBUF_V).toNat = n := by
  have e : bhdr n fr &&& MBUF_V = BitVec.ofNat 32 n := by
    rw [bhdr, bv_or_and, bv_or_and, ofNat_and_V h]
    have e1 : MALLOC_BRK &&& MBUF_V = 0#32 := by decide
    have e2 : (if fr = true then MBUF_FREE else 0#32) &&& MBUF_V = 0#32 := by cases fr <;> decide
    rw [e1, e2]
    simp
  rw [e, BitVec.toNat_ofNat, Nat.mod_eq_of_lt (by omega)]

theorem bhdr_free (n : Nat) (fr : Bool) : bhdr n fr ||| MBUF_FREE = bhdr n true := by
  cases fr
  · simp [bhdr]
  · simp [bhdr, BitVec.or_assoc]

theorem bhdr_new (n : Nat) : MALLOC_BRK ||| BitVec.ofInt 32 (n : Int) = bhdr n false := by
  simp [bhdr]

/-- A block: its size with the header, and whether it has been freed. -/
structure BBlk where
  s : Nat
  fr : Bool

/-- The blocks `bs` fill `[a, e)`. -/
def BChain (m : Mem) (a : Nat) : List BBlk → Nat → Prop
  | [], e => a = e
  | b :: bs, e => 8 ≤ b.s ∧ b.s % 4 = 0 ∧ b.s < 2 ^ 28 ∧ m.HasW a (bhdr b.s b.fr) ∧ BChain m (a + b.s) bs e

/-- Bytes of the blocks. -/
def btotal : List BBlk → Nat
  | [] => 0
  | b :: bs => b.s + btotal bs

/-- The blocks held: pointer and usable bytes. -/
def bLive (a : Nat) : List BBlk → List (Nat × Nat)
  | [] => []
  | b :: bs => if b.fr then bLive (a + b.s) bs else (a + 4, b.s - 4) :: bLive (a + b.s) bs

theorem bchain_total {m : Mem} {bs : List BBlk} {a e : Nat} (h : BChain m a bs e) : e = a + btotal bs := by
  induction bs generalizing a with
  | nil => simp [BChain] at h; simp [btotal, h]
  | cons b bs ih => have := ih h.2.2.2.2; simp only [btotal]; omega

theorem btotal_append (xs ys : List BBlk) : btotal (xs ++ ys) = btotal xs + btotal ys := by
  induction xs with
  | nil => simp [btotal]
  | cons b xs ih => simp [btotal, ih]; omega

theorem bchain_append {m : Mem} {xs ys : List BBlk} {a e : Nat} :
    BChain m a (xs ++ ys) e ↔ BChain m a xs (a + btotal xs) ∧ BChain m (a + btotal xs) ys e := by
  induction xs generalizing a with
  | nil => simp [BChain, btotal]
  | cons b xs ih =>
    simp only [List.cons_append, BChain, btotal, ih, show a + (b.s + btotal xs) = a + b.s + btotal xs by omega]
    constructor
    · rintro ⟨h1, h2, h3, h4, h5, h6⟩; exact ⟨⟨h1, h2, h3, h4, h5⟩, h6⟩
    · rintro ⟨⟨h1, h2, h3, h4, h5⟩, h6⟩; exact ⟨h1, h2, h3, h4, h5, h6⟩

theorem bLive_append (a : Nat) (xs ys : List BBlk) : bLive a (xs ++ ys) = bLive a xs ++ bLive (a + btotal xs) ys := by
  induction xs generalizing a with
  | nil => simp [bLive, btotal]
  | cons b xs ih =>
    simp only [List.cons_append, bLive, btotal, ih, show a + (b.s + btotal xs) = a + b.s + btotal xs by omega]
    split <;> simp

/-- Addresses of the headers. -/
def BHead (a : Nat) : List BBlk → Nat → Prop
  | [], _ => False
  | b :: bs, x => a ≤ x ∧ x < a + 4 ∨ BHead (a + b.s) bs x

theorem bchain_congr {m m' : Mem} {bs : List BBlk} {a e : Nat} (h : BChain m a bs e)
    (hc : ∀ x, BHead a bs x → m' x = m x) : BChain m' a bs e := by
  induction bs generalizing a with
  | nil => exact h
  | cons b bs ih =>
    obtain ⟨h1, h2, h3, h4, h5⟩ := h
    refine ⟨h1, h2, h3, ?_, ih h5 (fun x hx => hc x (Or.inr hx))⟩
    exact HasW.congr h4 (fun x hx1 hx2 => hc x (Or.inl ⟨hx1, hx2⟩))

theorem bhead_range {bs : List BBlk} {a x : Nat} (h : BHead a bs x) (h8 : ∀ b ∈ bs, 8 ≤ b.s) :
    a ≤ x ∧ x + 4 < a + btotal bs := by
  induction bs generalizing a with
  | nil => exact h.elim
  | cons b bs ih =>
    have hb := h8 b (by simp)
    simp only [btotal]
    rcases h with h | h
    · omega
    · have := ih h (fun b hb => h8 b (by simp [hb])); omega

theorem bchain_ge {m : Mem} {bs : List BBlk} {a e : Nat} (h : BChain m a bs e) : ∀ b ∈ bs, 8 ≤ b.s := by
  induction bs generalizing a with
  | nil => simp
  | cons b bs ih =>
    intro c hc
    rcases List.mem_cons.1 hc with rfl | hc
    · exact h.1
    · exact ih h.2.2.2.2 c hc

theorem bchain_mod {m : Mem} {bs : List BBlk} {a e : Nat} (h : BChain m a bs e) : btotal bs % 4 = 0 := by
  induction bs generalizing a with
  | nil => rfl
  | cons b bs ih => have := ih h.2.2.2.2; have := h.2.1; simp only [btotal]; omega

theorem bhead_append {xs ys : List BBlk} {a x : Nat} :
    BHead a (xs ++ ys) x ↔ BHead a xs x ∨ BHead (a + btotal xs) ys x := by
  induction xs generalizing a with
  | nil => simp [BHead, btotal]
  | cons b xs ih =>
    simp only [List.cons_append, BHead, btotal, ih, show a + (b.s + btotal xs) = a + b.s + btotal xs by omega]
    exact or_assoc.symm

/-- A held block splits the chain. -/
theorem bLive_split {bs : List BBlk} {a p c : Nat} (h : (p, c) ∈ bLive a bs) :
    ∃ xs b ys, bs = xs ++ b :: ys ∧ b.fr = false ∧ p = a + btotal xs + 4 ∧ c = b.s - 4 := by
  induction bs generalizing a with
  | nil => simp [bLive] at h
  | cons b bs ih =>
    have go : (p, c) ∈ bLive (a + b.s) bs →
        ∃ xs b' ys, b :: bs = xs ++ b' :: ys ∧ b'.fr = false ∧ p = a + btotal xs + 4 ∧ c = b'.s - 4 := by
      intro h
      obtain ⟨xs, b', ys, e, h1, h2, h3⟩ := ih h
      exact ⟨b :: xs, b', ys, by simp [e], h1, by simp only [btotal]; omega, h3⟩
    by_cases hf : b.fr = true
    · simp only [bLive, hf, if_true] at h; exact go h
    · simp only [bLive, hf] at h
      rcases List.mem_cons.1 h with h | h
      · simp only [Prod.mk.injEq] at h
        exact ⟨[], b, bs, rfl, by simpa using hf, by simp [btotal]; omega, h.2⟩
      · exact go h

/-- Bytes of a held block are no header. -/
theorem bhead_live {m : Mem} {bs : List BBlk} {a e p c x : Nat} (hc : BChain m a bs e) (h : (p, c) ∈ bLive a bs)
    (hx : p ≤ x ∧ x < p + c) : ¬ BHead a bs x := by
  obtain ⟨xs, b, ys, rfl, -, hp, hcs⟩ := bLive_split h
  have h8 := bchain_ge hc
  have hb := h8 b (by simp)
  rw [bhead_append]
  rintro (hh | hh)
  · have := bhead_range hh (fun b hb => h8 b (by simp [hb])); omega
  · rcases hh with hh | hh
    · omega
    · have := bhead_range hh (fun b hb => h8 b (by simp [hb])); omega

theorem bLive_bounds {m : Mem} {bs : List BBlk} {a e p c : Nat} (hc : BChain m a bs e) (h : (p, c) ∈ bLive a bs) :
    a + 4 ≤ p ∧ p + c ≤ e ∧ 4 ≤ c ∧ (p - a) % 4 = 0 := by
  have he := bchain_total hc
  have h8 := bchain_ge hc
  obtain ⟨xs, b, ys, rfl, -, hp, hcs⟩ := bLive_split h
  have hb := h8 b (by simp)
  have hm := bchain_mod (bchain_append.1 hc).1
  rw [btotal_append] at he
  simp only [btotal] at he
  omega

theorem bLive_disjoint {m : Mem} {bs : List BBlk} {a e p c p' c' : Nat} (hc : BChain m a bs e)
    (h : (p, c) ∈ bLive a bs) (h' : (p', c') ∈ bLive a bs) :
    (p = p' ∧ c = c') ∨ p + c + 4 ≤ p' ∨ p' + c' + 4 ≤ p := by
  induction bs generalizing a with
  | nil => simp [bLive] at h
  | cons b bs ih =>
    have h8 := hc.1
    by_cases hf : b.fr = true
    · simp only [bLive, hf, if_true] at h h'
      exact ih hc.2.2.2.2 h h'
    · simp only [bLive, hf] at h h'
      rcases List.mem_cons.1 h with h | h <;> rcases List.mem_cons.1 h' with h' | h'
      · simp only [Prod.mk.injEq] at h h'; left; omega
      · simp only [Prod.mk.injEq] at h
        have := bLive_bounds hc.2.2.2.2 h'
        omega
      · simp only [Prod.mk.injEq] at h'
        have := bLive_bounds hc.2.2.2.2 h
        omega
      · exact ih hc.2.2.2.2 h h'

theorem le_pageUp (x : Nat) : x ≤ pageUp x := by unfold pageUp; omega

theorem pageUp_mono {x y : Nat} (h : x ≤ y) : pageUp x ≤ pageUp y := by unfold pageUp; omega

theorem remap_shrink {m : Mem} {old new x : Nat} (hx : x < pageUp new) (h : new ≤ old) : remap m old new x = m x := by
  have := pageUp_mono h
  rw [remap, if_neg (by omega), if_neg (by omega)]

theorem remap_grow {m : Mem} {old new x : Nat} (hx : x < pageUp old) (h : old ≤ new) : remap m old new x = m x := by
  have := pageUp_mono h
  rw [remap, if_neg (by omega), if_neg (by omega)]

/-- Memory below both breaks is the same. -/
theorem remap_low {m : Mem} {old new x : Nat} (hx : x < pageUp old) (hx' : x < pageUp new) : remap m old new x = m x := by
  rw [remap, if_neg (by omega), if_neg (by omega)]

/-- What holds between calls. -/
structure BInv (K : BrkK) (s : BrkSt) (bs : List BBlk) : Prop where
  chain : BChain s.heap.mem K.start bs s.kbrk
  cached : s.brk = 0 ∨ s.brk = s.kbrk
  mapd : ∀ x, K.start ≤ x → x < pageUp s.kbrk → s.heap.mem x ≠ none
  mst : (s.mstart = 0 ∧ bs = []) ∨ s.mstart = K.start
  bound : s.kbrk < 2 ^ 47

theorem BInv.le {K : BrkK} {s : BrkSt} {bs : List BBlk} (I : BInv K s bs) : K.start ≤ s.kbrk := by
  have := bchain_total I.chain; omega

theorem sysBrk_ok {K : BrkK} {s : BrkSt} {a : Nat} (h1 : K.start ≤ a) (h2 : a < 2 ^ 47)
    (h3 : a ≤ s.kbrk ∨ a ≤ K.limit s.calls) :
    sysBrk K s (a : Int) =
      (⟨⟨remap s.heap.mem s.kbrk a, s.heap.mbufsize⟩, s.brk, s.mstart, a, s.calls + 1⟩, (a : Int)) := by
  have e : (((a : Nat) : Int) % 18446744073709551616).toNat = a := by omega
  simp only [sysBrk, e]
  rw [if_pos ⟨h1, h3⟩]

/-- `getbrk` tells the break. -/
theorem getbrk_spec {K : BrkK} (hK : K.Ok) {s : BrkSt} {bs : List BBlk} (I : BInv K s bs) :
    ∃ s', getbrk K s = (s', (s.kbrk : Int)) ∧ BInv K s' bs ∧ s'.heap = s.heap ∧ s'.kbrk = s.kbrk ∧
      s'.mstart = s.mstart ∧ s'.brk = s.kbrk ∧ s.calls ≤ s'.calls ∧ s'.calls ≤ s.calls + 1 := by
  have hle := I.le
  have hp := hK.pos
  rcases I.cached with hc | hc
  · refine ⟨⟨s.heap, s.kbrk, s.mstart, s.kbrk, s.calls + 1⟩, ?_, ⟨I.chain, Or.inr rfl, I.mapd, I.mst, I.bound⟩, rfl, rfl, rfl,
      rfl, by simp, by simp⟩
    have e : ((0 : Int) % 18446744073709551616).toNat = 0 := by decide
    simp only [getbrk, hc, if_true, sysBrk, e]
    rw [if_neg (by omega)]
    simp
  · refine ⟨s, ?_, I, rfl, rfl, rfl, hc, by omega, by omega⟩
    rw [getbrk, if_neg (by omega), hc]

/-- `brk` to the start of a block drops the blocks from there. -/
theorem brk_cut {K : BrkK} (hK : K.Ok) {s : BrkSt} {xs ys : List BBlk} (I : BInv K s (xs ++ ys)) {a : Nat}
    (ha : a = K.start + btotal xs) :
    ∃ s', brk K s (a : Int) = (s', 0) ∧ BInv K s' xs ∧ s'.kbrk = a ∧ s'.brk = a ∧ s'.mstart = s.mstart ∧
      s'.heap.mbufsize = s.heap.mbufsize ∧ (∀ x, x < pageUp a → s'.heap.mem x = s.heap.mem x) := by
  have ht := bchain_total I.chain
  rw [btotal_append] at ht
  have hb := I.bound
  have hp := hK.pos
  have e := sysBrk_ok (K := K) (s := s) (a := a) (by omega) (by omega) (Or.inl (by omega))
  have hmem : ∀ x, x < pageUp a → remap s.heap.mem s.kbrk a x = s.heap.mem x :=
    fun x hx => remap_shrink hx (by omega)
  refine ⟨⟨⟨remap s.heap.mem s.kbrk a, s.heap.mbufsize⟩, a, s.mstart, a, s.calls + 1⟩, ?_, ⟨?_, Or.inr rfl, ?_, ?_, ?_⟩, rfl, rfl,
    rfl, rfl, hmem⟩
  · rw [brk, e]
    simp only
    rw [if_pos (by omega)]
    simp
  · have h := (bchain_append.1 I.chain).1
    rw [← ha] at h
    refine bchain_congr h (fun x hx => hmem x ?_)
    have := bhead_range hx (bchain_ge h)
    have := le_pageUp a
    omega
  · intro x h1 h2
    simp only at h2 ⊢
    have := pageUp_mono (x := a) (y := s.kbrk) (by omega)
    rw [hmem x h2]
    exact I.mapd x h1 (by omega)
  · rcases I.mst with ⟨h1, h2⟩ | h
    · left
      simp only [List.append_eq_nil_iff] at h2
      exact ⟨h1, h2.1⟩
    · exact Or.inr h
  · simp only; omega

theorem need_pos (n : Nat) : 4 ≤ need n := by unfold need; omega

theorem need_mod (n : Nat) : need n % 4 = 0 := by unfold need; omega

theorem need_ge {n : Nat} : n + 4 ≤ need n ∧ need n ≤ n + 7 := by unfold need; omega

theorem mapped_of {K : BrkK} {s : BrkSt} {bs : List BBlk} (I : BInv K s bs) {a n : Nat} (h1 : K.start ≤ a)
    (h2 : a + n ≤ s.kbrk) : s.heap.mem.Mapped a n := by
  intro i hi
  have := le_pageUp s.kbrk
  exact Option.ne_none_iff_exists'.1 (I.mapd (a + i) (by omega) (by omega))

/-- Growing the break: what the chain is followed by. -/
theorem grow_inv {K : BrkK} {s : BrkSt} {xs ys : List BBlk} (I : BInv K s (xs ++ ys)) {a e n : Nat}
    (ha : a = K.start + btotal xs) (he : e = a + n) (h8 : 8 ≤ n) (h4 : n % 4 = 0) (hn : n < 2 ^ 28) (hb : e < 2 ^ 47)
    (mst calls : Nat) (hm : mst = K.start) :
    (remap s.heap.mem s.kbrk e).Mapped a 4 ∧
    BInv K ⟨⟨(remap s.heap.mem s.kbrk e).write a (wordBytes (bhdr n false)), s.heap.mbufsize⟩, e, mst, e, calls⟩
      (xs ++ [⟨n, false⟩]) ∧
    ∀ x, (x < a ∨ a + 4 ≤ x) → x < pageUp s.kbrk → x < pageUp e →
      (remap s.heap.mem s.kbrk e).write a (wordBytes (bhdr n false)) x = s.heap.mem x := by
  have ht := bchain_total I.chain
  rw [btotal_append] at ht
  have hmp : ∀ x, K.start ≤ x → x < pageUp e → remap s.heap.mem s.kbrk e x ≠ none := by
    intro x h1 h2
    rw [remap]
    split
    · simp
    · rw [if_neg (by omega)]
      exact I.mapd x h1 (by omega)
  have hout : ∀ x, (x < a ∨ a + 4 ≤ x) →
      (remap s.heap.mem s.kbrk e).write a (wordBytes (bhdr n false)) x = remap s.heap.mem s.kbrk e x := by
    intro x hx
    exact write_outside _ _ _ _ (by simp; omega)
  have hle := le_pageUp e
  have hlk := le_pageUp s.kbrk
  refine ⟨fun i hi => Option.ne_none_iff_exists'.1 (hmp (a + i) (by omega) (by omega)), ⟨?_, Or.inr rfl, ?_, Or.inr hm, hb⟩, ?_⟩
  · rw [bchain_append]
    have h := (bchain_append.1 I.chain).1
    refine ⟨bchain_congr h fun x hx => ?_, ?_⟩
    · have := bhead_range hx (bchain_ge h)
      simp only
      rw [hout x (by omega), remap_low (by omega) (by omega)]
    · rw [← ha]
      exact ⟨h8, h4, hn, hasW_write_same _ _ _, by simp only [BChain]; omega⟩
  · intro x h1 h2
    simp only at h2 ⊢
    have hx := hmp x h1 h2
    by_cases hc : a ≤ x ∧ x < a + 4
    · have e1 : x = a + (x - a) := by omega
      rw [e1, write_inside _ _ _ _ (by simp; omega)]
      simp
    · rw [hout x (by omega)]; exact hx
  · intro x h1 h2 h3
    rw [hout x h1, remap_low h2 h3]

/-- `malloc_brk` appends a block. -/
theorem mallocBrk_spec {K : BrkK} (hK : K.Ok) {s : BrkSt} {bs : List BBlk} (I : BInv K s bs) {n : Nat} (h1 : 1 ≤ n)
    (h2 : n ≤ 268435448) (hg : K.Grants s (s.kbrk + need n)) :
    ∃ s', mallocBrk K s (n : Int) = .ok (s', s.kbrk + 4) ∧ BInv K s' (bs ++ [⟨need n, false⟩]) ∧
      s'.kbrk = s.kbrk + need n ∧ s'.heap.mbufsize = s.heap.mbufsize ∧
      ∀ x, x < s.kbrk → s'.heap.mem x = s.heap.mem x := by
  have hn := need_ge (n := n)
  have hn4 := need_mod n
  have ht := bchain_total I.chain
  have hb := I.bound
  have hp := hK.pos
  obtain ⟨g, eg, Ig, hgh, hgk, hgm, hgb, hc1, hc2⟩ := getbrk_spec hK I
  have hlim := hg g.calls hc1 hc2
  have hlt := hK.lim g.calls
  have e1 : ((((n : Int)) - 1) / 4 + 2) * 4 = (need n : Int) := by unfold need; omega
  have e2 : (s.kbrk : Int) + (need n : Int) = ((s.kbrk + need n : Nat) : Int) := by omega
  have eS := sysBrk_ok (K := K) (s := g) (a := s.kbrk + need n) (by omega) (by omega) (Or.inr hlim)
  have hm : (if g.mstart = 0 then s.kbrk else g.mstart) = K.start := by
    rcases I.mst with ⟨h1, h2⟩ | h
    · subst h2
      simp only [btotal] at ht
      rw [if_pos (by omega)]
      omega
    · rw [hgm, h, if_neg (by omega)]
  have Ig' : BInv K g (bs ++ []) := by simpa using Ig
  obtain ⟨m1, I1, m3⟩ := grow_inv Ig' (a := s.kbrk) (e := s.kbrk + need n) (n := need n) (by omega) rfl (by omega) hn4
    (by omega) (by omega) (if g.mstart = 0 then s.kbrk else g.mstart) (g.calls + 1) hm
  refine ⟨_, ?_, I1, rfl, by rw [hgh], fun x hx => ?_⟩
  · rw [mallocBrk, if_neg (by omega), if_neg (by omega), e1, ckInt_ok (by omega) (by omega)]
    simp only [Res.ok_bind]
    rw [sbrk, eg]
    simp only
    rw [e2, ckLong, if_pos (by omega)]
    simp only [Res.ok_bind]
    rw [eS]
    simp only
    rw [if_pos (by omega)]
    simp only [Res.pure_eq, Res.ok_bind, Int.toNat_natCast]
    rw [if_neg (by omega)]
    by_cases hz : g.mstart = 0
    · simp only [hz, if_true] at m1 I1 m3 ⊢
      rw [bhdr_new, storeW_eq _ m1]
      simp
    · simp only [hz, if_false] at m1 I1 m3 ⊢
      rw [bhdr_new, storeW_eq _ m1]
      simp
  · have := le_pageUp g.kbrk
    have := le_pageUp (s.kbrk + need n)
    rw [← hgh]
    exact m3 x (by omega) (by omega) (by omega)

/-- `free` of a held block: at the end of the data segment the break goes back to it, otherwise it is marked. -/
theorem freeB_spec {K : BrkK} (hK : K.Ok) (A : Arena) {s : BrkSt} {xs ys : List BBlk} {n : Nat}
    (I : BInv K s (xs ++ ⟨n, false⟩ :: ys)) {p : Nat} (hp : p = K.start + btotal xs + 4) :
    ∃ s', freeB A K s p = .ok s' ∧ BInv K s' (if ys = [] then xs else xs ++ ⟨n, true⟩ :: ys) ∧
      s'.kbrk = (if ys = [] then p - 4 else s.kbrk) ∧ s'.heap.mbufsize = s.heap.mbufsize ∧
      ∀ x, (x < p - 4 ∨ p ≤ x) → x < s'.kbrk → s'.heap.mem x = s.heap.mem x := by
  have hch := bchain_append.1 I.chain
  obtain ⟨h8, h4, h28, hw, hys⟩ := hch.2
  simp only at h8 h4 h28 hw hys
  have ht := bchain_total hys
  have e4 : (p : Int) - 4 = ((p - 4 : Nat) : Int) := by omega
  have hw' : s.heap.mem.HasW (p - 4) (bhdr n false) := by
    have : p - 4 = K.start + btotal xs := by omega
    rw [this]; exact hw
  obtain ⟨g, eg, Ig, hgh, hgk, hgm, hgb, hc1, hc2⟩ := getbrk_spec hK I
  rw [freeB, if_neg (by omega), e4, loadW_eq hw']
  simp only [Res.ok_bind]
  rw [if_pos (by rw [bhdr_BRK h28]; decide), bhdr_V h28, eg]
  simp only
  by_cases hy : ys = []
  · subst hy
    simp only [btotal] at ht
    rw [if_pos (by omega)]
    obtain ⟨s', eb, I', k1, k2, k3, k4, k5⟩ := brk_cut hK Ig (a := p - 4) (by omega)
    refine ⟨s', by rw [eb]; rfl, by simpa using I', by simpa using k1, by rw [k4, hgh], fun x _ hx => ?_⟩
    have := le_pageUp (p - 4)
    rw [k5 x (by omega), hgh]
  · have h8y : 8 ≤ btotal ys := by
      cases ys with
      | nil => exact (hy rfl).elim
      | cons b ys => have := hys.1; simp only [btotal]; omega
    rw [if_neg (by omega)]
    have hwg : g.heap.mem.HasW (p - 4) (bhdr n false) := by rw [hgh]; exact hw'
    rw [storeW_eq _ hwg.mapped, bhdr_free]
    have hout : ∀ x, (x < p - 4 ∨ p ≤ x) → (g.heap.mem.write (p - 4) (wordBytes (bhdr n true))) x = s.heap.mem x := by
      intro x hx
      rw [write_outside _ _ _ _ (by simp; omega), hgh]
    refine ⟨_, rfl, ?_, by simp [hy, hgk], by simp [hgh], fun x hx _ => hout x hx⟩
    simp only [hy, if_false]
    refine ⟨?_, Ig.cached, ?_, ?_, Ig.bound⟩
    · simp only
      rw [bchain_append, hgk]
      refine ⟨bchain_congr hch.1 fun x hx => ?_, h8, h4, h28, ?_, bchain_congr hys fun x hx => ?_⟩
      · have := bhead_range hx (bchain_ge hch.1)
        exact hout x (by omega)
      · have : p - 4 = K.start + btotal xs := by omega
        rw [← this]
        exact hasW_write_same _ _ _
      · have := bhead_range hx (bchain_ge hys)
        simp only at this
        exact hout x (by omega)
    · intro x h1 h2
      simp only at h2 ⊢
      have := I.mapd x h1 (by rw [← hgk]; exact h2)
      by_cases hx : p - 4 ≤ x ∧ x < p
      · have e1 : x = p - 4 + (x - (p - 4)) := by omega
        rw [e1, write_inside _ _ _ _ (by simp; omega)]
        simp
      · rw [hout x (by omega)]; exact this
    · right
      rcases Ig.mst with ⟨_, h⟩ | h
      · simp at h
      · exact h

/-- `realloc` of the block at the end of the data segment moves the break. -/
theorem reallocB_spec {K : BrkK} (hK : K.Ok) (A : Arena) {s : BrkSt} {xs : List BBlk} {n : Nat}
    (I : BInv K s (xs ++ [⟨n, false⟩])) {p : Nat} (hp : p = K.start + btotal xs + 4) {k : Nat} (h1 : 1 ≤ k)
    (h2 : k ≤ 268435448) (hg : K.Grants s (p + (need k - 4))) :
    ∃ s', reallocB A K s p (k : Int) = .ok (s', p) ∧ BInv K s' (xs ++ [⟨need k, false⟩]) ∧
      s'.kbrk = p + (need k - 4) ∧ s'.heap.mbufsize = s.heap.mbufsize ∧
      ∀ x, (x < p - 4 ∨ p ≤ x) → x < s.kbrk → x < s'.kbrk → s'.heap.mem x = s.heap.mem x := by
  have hn := need_ge (n := k)
  have hn4 := need_mod k
  have hch := bchain_append.1 I.chain
  obtain ⟨h8, h4, h28, hw, hys⟩ := hch.2
  simp only at h8 h4 h28 hw hys
  have ht : K.start + btotal xs + n = s.kbrk := hys
  have e4 : (p : Int) - 4 = ((p - 4 : Nat) : Int) := by omega
  have epa : p - 4 = K.start + btotal xs := by omega
  have hw' : s.heap.mem.HasW (p - 4) (bhdr n false) := by rw [epa]; exact hw
  have e1 : (((k : Int)) - 1) / 4 + 2 = ((need k / 4 : Nat) : Int) := by unfold need; omega
  have e3 : ((need k / 4 : Nat) : Int) * 4 = (need k : Int) := by omega
  obtain ⟨g, eg, Ig, hgh, hgk, hgm, hgb, hc1, hc2⟩ := getbrk_spec hK I
  have hlim := hg g.calls hc1 hc2
  have hlt := hK.lim g.calls
  have hpos := hK.pos
  rw [reallocB, if_neg (by omega), if_neg (by omega), e4, loadW_eq hw']
  simp only [Res.ok_bind]
  rw [ckInt_ok (by omega) (by omega)]
  simp only [Res.ok_bind]
  rw [e1, e3, ckInt_ok (by omega) (by omega)]
  simp only [Res.ok_bind]
  rw [bhdr_V h28]
  by_cases he : n = need k
  · rw [if_pos (by omega)]
    subst he
    exact ⟨s, rfl, I, by omega, rfl, fun _ _ _ _ => rfl⟩
  · rw [if_neg (by omega), if_pos (by rw [bhdr_BRK h28]; decide), eg]
    simp only
    rw [if_pos (by omega)]
    have e5 : ((p - 4 : Nat) : Int) + (need k : Int) = ((p - 4 + need k : Nat) : Int) := by omega
    have eS := sysBrk_ok (K := K) (s := g) (a := p - 4 + need k) (by omega) (by omega) (Or.inr (by omega))
    obtain ⟨m1, I1, m3⟩ := grow_inv Ig (a := p - 4) (e := p - 4 + need k) (n := need k) epa rfl (by omega) hn4
      (by omega) (by omega) g.mstart (g.calls + 1) (by
        rcases Ig.mst with ⟨_, h⟩ | h
        · simp at h
        · exact h)
    have eb : brk K g ((p - 4 + need k : Nat) : Int) = (⟨⟨remap g.heap.mem g.kbrk (p - 4 + need k), g.heap.mbufsize⟩,
        p - 4 + need k, g.mstart, p - 4 + need k, g.calls + 1⟩, 0) := by
      rw [brk, eS]
      simp only
      rw [if_pos (by omega), Int.toNat_natCast]
    rw [e5, eb]
    simp only [ne_eq, not_true_eq_false, if_false]
    rw [bhdr_new, storeW_eq _ m1]
    refine ⟨_, rfl, I1, by simp only; omega, by simp [hgh], fun x hx h1 h2 => ?_⟩
    have := le_pageUp g.kbrk
    have := le_pageUp (p - 4 + need k)
    simp only at h2
    rw [← hgh]
    exact m3 x (by omega) (by omega) (by omega)

/-- `free_brk` gives everything back. -/
theorem freeBrk_spec {K : BrkK} (hK : K.Ok) {s : BrkSt} {bs : List BBlk} (I : BInv K s bs) :
    ∃ s', freeBrk K s = (s', if bs = [] then 1 else 0) ∧ BInv K s' [] ∧ s'.kbrk = K.start ∧
      s'.heap.mbufsize = s.heap.mbufsize ∧ ∀ x, x < K.start → s'.heap.mem x = s.heap.mem x := by
  have ht := bchain_total I.chain
  have hpos := hK.pos
  obtain ⟨g, eg, Ig, hgh, hgk, hgm, hgb, hc1, hc2⟩ := getbrk_spec hK I
  by_cases hb : bs = []
  · subst hb
    simp only [btotal] at ht
    rw [freeBrk]
    by_cases hm : s.mstart = 0
    · rw [if_neg (by simpa using hm)]
      exact ⟨s, by simp, I, by omega, rfl, fun _ _ => rfl⟩
    · rw [if_pos hm, eg]
      simp only
      have hms : s.mstart = K.start := by
        rcases I.mst with ⟨h, _⟩ | h
        · exact (hm h).elim
        · exact h
      rw [if_neg (by omega)]
      exact ⟨g, by simp, Ig, by omega, by rw [hgh], fun _ _ => by rw [hgh]⟩
  · have h8 : 8 ≤ btotal bs := by
      cases bs with
      | nil => exact (hb rfl).elim
      | cons b bs => have := I.chain.1; simp only [btotal]; omega
    have hms : s.mstart = K.start := by
      rcases I.mst with ⟨_, h⟩ | h
      · exact (hb h).elim
      · exact h
    rw [freeBrk, if_pos (by omega), eg]
    simp only
    rw [if_pos (by omega), hms]
    obtain ⟨s', eb, I', k1, k2, k3, k4, k5⟩ := brk_cut hK (xs := []) (ys := bs) Ig (a := K.start) (by simp [btotal])
    refine ⟨s', by rw [eb]; simp [hb], I', k1, by rw [k4, hgh], fun x hx => ?_⟩
    have := le_pageUp K.start
    rw [k5 x (by omega), hgh]

/-- The blocks the program holds are blocks of the chain. -/
structure BLinked (K : BrkK) (c : BClient) (bs : List BBlk) : Prop where
  inv : BInv K c.st bs
  live : ∀ p n, (p, n) ∈ c.live → (p, need n - 4) ∈ bLive K.start bs
  nodup : c.live.Pairwise (fun b b' => b.1 ≠ b'.1)
  shadow : ∀ p n i b, (p, n) ∈ c.live → i < n → c.shadow (p + i) = some b → c.st.heap.mem (p + i) = some b
  saved : ∀ b ∈ c.saved, ∃ xs ys, bs = xs ++ ys ∧ b = K.start + btotal xs

theorem BLinked.bounds {K : BrkK} {c : BClient} {bs : List BBlk} (L : BLinked K c bs) {p n : Nat}
    (h : (p, n) ∈ c.live) : K.start + 4 ≤ p ∧ p + n ≤ c.st.kbrk ∧ (p - K.start) % 4 = 0 ∧ p + (need n - 4) ≤ c.st.kbrk := by
  have h1 := bLive_bounds L.inv.chain (L.live p n h)
  have := need_ge (n := n)
  omega

theorem BLinked.disj {K : BrkK} {c : BClient} {bs : List BBlk} (L : BLinked K c bs) {p n q k : Nat}
    (h : (p, n) ∈ c.live) (h' : (q, k) ∈ c.live) (hne : p ≠ q) : p + n + 4 ≤ q ∨ q + k + 4 ≤ p := by
  have h1 := bLive_disjoint L.inv.chain (L.live p n h) (L.live q k h')
  have := need_ge (n := n)
  have := need_ge (n := k)
  omega

/-- A prefix of `xs ++ ys` that ends not behind `xs` is one of `xs`. -/
theorem prefix_cut {xs ys us vs : List BBlk} (h : xs ++ ys = us ++ vs) (h8 : ∀ b ∈ xs ++ ys, 8 ≤ b.s)
    (hle : btotal us ≤ btotal xs) : ∃ ws, xs = us ++ ws := by
  induction us generalizing xs with
  | nil => exact ⟨xs, rfl⟩
  | cons b us ih =>
    cases xs with
    | nil =>
      have := h8 b (by rw [h]; simp)
      simp only [btotal] at hle
      omega
    | cons x xs =>
      simp only [List.cons_append, List.cons.injEq] at h
      obtain ⟨rfl, h⟩ := h
      simp only [btotal] at hle
      obtain ⟨ws, e⟩ := ih h (fun b hb => h8 b (by simp at hb ⊢; exact Or.inr hb)) (by omega)
      exact ⟨ws, by simp [e]⟩

theorem bLive_ext {xs ys : List BBlk} {a p c : Nat} (h : (p, c) ∈ bLive a xs) : (p, c) ∈ bLive a (xs ++ ys) := by
  rw [bLive_append]; exact List.mem_append_left _ h

/-- A held block in front of `K.start + btotal xs` is one of `xs`. -/
theorem bLive_cut {m : Mem} {xs ys : List BBlk} {a e p c : Nat} (hc : BChain m a (xs ++ ys) e)
    (h : (p, c) ∈ bLive a (xs ++ ys)) (hp : p < a + btotal xs + 4) : (p, c) ∈ bLive a xs := by
  rw [bLive_append] at h
  rcases List.mem_append.1 h with h | h
  · exact h
  · have := bLive_bounds (bchain_append.1 hc).2 h
    omega

theorem pair_filter {l : List (Nat × Nat)} (f : Nat × Nat → Bool) (h : l.Pairwise (fun b b' => b.1 ≠ b'.1)) :
    (l.filter f).Pairwise (fun b b' => b.1 ≠ b'.1) := h.sublist List.filter_sublist

/-- In every history the held blocks are blocks of a chain from the start of the data segment to the break. -/
theorem breach_linked {K : BrkK} (hK : K.Ok) {A : Arena} {h₀ : Heap} {c : BClient} (r : BReach K A h₀ c) :
    ∃ bs, BLinked K c bs := by
  induction r with
  | init =>
    refine ⟨[], ⟨rfl, Or.inl rfl, ?_, Or.inl ⟨rfl, rfl⟩, hK.top⟩, by simp, by simp, by simp, by simp⟩
    intro x h1 h2
    have hp := hK.page
    simp only [BrkSt.init, pageUp] at h2
    omega
  | @alloc c s p n r h1 h2 hg e ih =>
    obtain ⟨bs, L⟩ := ih
    obtain ⟨s', e', I, hk, -, hm⟩ := mallocBrk_spec hK L.inv h1 h2 hg
    rw [e'] at e
    obtain ⟨rfl, rfl⟩ : s' = s ∧ c.st.kbrk + 4 = p := by simpa using e
    have ht := bchain_total L.inv.chain
    have hne : ∀ q k, (q, k) ∈ c.live → q + k + 4 ≤ c.st.kbrk + 4 := fun q k hq => by
      have := L.bounds hq; omega
    refine ⟨bs ++ [⟨need n, false⟩], I, ?_, ?_, ?_, ?_⟩
    · intro q k hq
      rcases List.mem_cons.1 hq with hq | hq
      · simp only [Prod.mk.injEq] at hq
        obtain ⟨rfl, rfl⟩ := hq
        rw [bLive_append]
        refine List.mem_append_right _ ?_
        simp [bLive, ht]
      · exact bLive_ext (L.live q k hq)
    · refine List.Pairwise.cons ?_ L.nodup
      rintro ⟨q, k⟩ hq
      have := L.bounds hq
      simp only
      omega
    · intro q k i b hq hi hs
      simp only at hs ⊢
      rcases List.mem_cons.1 hq with hq | hq
      · simp only [Prod.mk.injEq] at hq
        obtain ⟨rfl, rfl⟩ := hq
        rw [forget, if_pos (by omega)] at hs
        simp at hs
      · have hb := L.bounds hq
        rw [forget, if_neg (by omega)] at hs
        rw [hm _ (by omega)]
        exact L.shadow q k i b hq hi hs
    · intro b hb
      obtain ⟨xs, ys, e1, e2⟩ := L.saved b hb
      exact ⟨xs, ys ++ [⟨need n, false⟩], by simp [e1], e2⟩
  | @free c s p n r hl e ih =>
    obtain ⟨bs, L⟩ := ih
    obtain ⟨xs, b, ys, rfl, hfr, hp, hsz⟩ := bLive_split (L.live p n hl)
    obtain ⟨bn, bf⟩ := b
    simp only at hfr hsz
    subst hfr
    obtain ⟨s', e', I, hk, -, hm⟩ := freeB_spec hK A L.inv hp
    rw [e'] at e
    obtain rfl : s' = s := by simpa using e
    have hch := L.inv.chain
    have h8 := bchain_ge hch
    have ht := bchain_total hch
    have hmem : ∀ q k, (q, k) ∈ c.live.filter (fun b => b.1 ≠ p) → (q, k) ∈ c.live ∧ q ≠ p := fun q k hq => by
      simpa using hq
    have hlv : ∀ q k, (q, k) ∈ c.live → q ≠ p →
        (q, need k - 4) ∈ bLive K.start (if ys = [] then xs else xs ++ ⟨bn, true⟩ :: ys) := by
      intro q k hq hne
      have h := L.live q k hq
      rw [bLive_append] at h
      have h' : (q, need k - 4) ∈ bLive K.start xs ∨ (q, need k - 4) ∈ bLive (K.start + btotal xs + bn) ys := by
        rcases List.mem_append.1 h with h | h
        · exact Or.inl h
        · simp only [bLive] at h
          rcases List.mem_cons.1 h with h | h
          · simp only [Prod.mk.injEq] at h; omega
          · exact Or.inr h
      by_cases hy : ys = []
      · subst hy
        simpa [bLive] using h'
      · simp only [hy, if_false]
        rw [bLive_append, List.mem_append]
        simpa [bLive] using h'
    refine ⟨_, I, ?_, pair_filter _ L.nodup, ?_, ?_⟩
    · intro q k hq
      exact hlv q k (hmem q k hq).1 (hmem q k hq).2
    · intro q k i b hq hi hs
      obtain ⟨hq, hne⟩ := hmem q k hq
      have hd := L.disj hq hl hne
      have hb := bLive_bounds I.chain (hlv q k hq hne)
      have := need_ge (n := k)
      have hbp := L.bounds hl
      simp only at hs ⊢
      rw [hm _ (by omega) (by omega)]
      exact L.shadow q k i b hq hi hs
    · intro b hb
      simp only [List.mem_filter, decide_eq_true_eq] at hb
      obtain ⟨us, vs, e1, e2⟩ := L.saved b hb.1
      by_cases hy : ys = []
      · subst hy
        simp only [if_true] at hk ⊢
        obtain ⟨ws, e3⟩ := prefix_cut e1 h8 (by omega)
        exact ⟨us, ws, e3, e2⟩
      · simp only [hy, if_false]
        by_cases hle : btotal us ≤ btotal xs
        · obtain ⟨ws, e3⟩ := prefix_cut e1 h8 hle
          exact ⟨us, ws ++ ⟨bn, true⟩ :: ys, by simp [e3], e2⟩
        · have e3 : xs ++ [⟨bn, false⟩] ++ ys = us ++ vs := by rw [← e1]; simp
          have : ∃ ws, us = xs ++ ⟨bn, false⟩ :: ws := by
            have h8' : ∀ b ∈ us ++ vs, 8 ≤ b.s := by rw [← e1]; exact h8
            obtain ⟨ws, e4⟩ := prefix_cut e1.symm h8' (by omega)
            subst e4
            cases ws with
            | nil => simp at hle
            | cons w ws =>
              rw [List.append_assoc, List.append_cancel_left_eq, List.cons_append, List.cons.injEq] at e1
              exact ⟨ws, by rw [← e1.1]⟩
          obtain ⟨ws, rfl⟩ := this
          rw [List.append_assoc, List.append_cancel_left_eq, List.cons_append, List.cons.injEq] at e1
          refine ⟨xs ++ ⟨bn, true⟩ :: ws, vs, by simp [e1.2], ?_⟩
          rw [e2, btotal_append, btotal_append]
          simp [btotal]
  | @resize c s p q n n' r hl hend h1 h2 hg e ih =>
    obtain ⟨bs, L⟩ := ih
    obtain ⟨xs, b, ys, rfl, hfr, hp, hsz⟩ := bLive_split (L.live p n hl)
    obtain ⟨bn, bf⟩ := b
    simp only at hfr hsz
    subst hfr
    have hch := L.inv.chain
    have h8 := bchain_ge hch
    have ht := bchain_total hch
    rw [btotal_append] at ht
    simp only [btotal] at ht
    have hb8 := h8 ⟨bn, false⟩ (by simp)
    have hys : ys = [] := by
      cases ys with
      | nil => rfl
      | cons y ys =>
        have := h8 y (by simp)
        simp only [btotal] at ht
        simp only at hb8
        omega
    subst hys
    obtain ⟨s', e', I, hk, -, hm⟩ := reallocB_spec hK A L.inv hp h1 h2 hg
    rw [e'] at e
    obtain ⟨rfl, rfl⟩ : s' = s ∧ p = q := by simpa using e
    have hmem : ∀ q k, (q, k) ∈ c.live.filter (fun b => b.1 ≠ p) → (q, k) ∈ c.live ∧ q ≠ p := fun q k hq => by
      simpa using hq
    have hlv : ∀ q k, (q, k) ∈ c.live → q ≠ p → (q, need k - 4) ∈ bLive K.start xs := by
      intro q k hq hne
      have h := L.live q k hq
      rw [bLive_append] at h
      rcases List.mem_append.1 h with h | h
      · exact h
      · simp [bLive] at h; omega
    have hnn := need_ge (n := n)
    have hnn' := need_ge (n := n')
    refine ⟨_, I, ?_, ?_, ?_, ?_⟩
    · intro q k hq
      rcases List.mem_cons.1 hq with hq | hq
      · simp only [Prod.mk.injEq] at hq
        obtain ⟨rfl, rfl⟩ := hq
        rw [bLive_append]
        refine List.mem_append_right _ ?_
        simp [bLive, hp]
      · exact bLive_ext (hlv q k (hmem q k hq).1 (hmem q k hq).2)
    · refine List.Pairwise.cons ?_ (pair_filter _ L.nodup)
      rintro ⟨q, k⟩ hq
      exact (hmem q k hq).2.symm
    · intro q k i b hq hi hs
      simp only at hs ⊢
      rcases List.mem_cons.1 hq with hq | hq
      · simp only [Prod.mk.injEq] at hq
        obtain ⟨rfl, rfl⟩ := hq
        by_cases hin : i < n
        · rw [forget, if_neg (by omega)] at hs
          rw [hm _ (by omega) (by omega) (by omega)]
          exact L.shadow q n i b hl hin hs
        · rw [forget, if_pos (by omega)] at hs
          simp at hs
      · obtain ⟨hq, hne⟩ := hmem q k hq
        have hbx := bLive_bounds (bchain_append.1 hch).1 (hlv q k hq hne)
        have := need_ge (n := k)
        rw [forget, if_neg (by omega)] at hs
        rw [hm _ (by omega) (by omega) (by omega)]
        exact L.shadow q k i b hq hi hs
    · intro b hb
      simp only [List.mem_filter, decide_eq_true_eq] at hb
      obtain ⟨us, vs, e1, e2⟩ := L.saved b hb.1
      have hmod := bchain_mod (bchain_append.1 (e1 ▸ hch)).1
      have hmod' := bchain_mod (bchain_append.1 hch).1
      obtain ⟨ws, e3⟩ := prefix_cut e1 h8 (by omega)
      exact ⟨us, ws ++ [⟨need n', false⟩], by simp [e3], e2⟩
  | @save c s b r e ih =>
    obtain ⟨bs, L⟩ := ih
    obtain ⟨g, eg, Ig, hgh, hgk, -⟩ := getbrk_spec hK L.inv
    rw [eg] at e
    obtain ⟨rfl, rfl⟩ : g = s ∧ (c.st.kbrk : Int) = b := by simpa using e
    refine ⟨bs, Ig, L.live, L.nodup, ?_, ?_⟩
    · simp only [hgh]; exact L.shadow
    · intro b hb
      rcases List.mem_cons.1 hb with hb | hb
      · exact ⟨bs, [], by simp, by rw [hb, ← bchain_total L.inv.chain]; simp⟩
      · exact L.saved b hb
  | @restore c s b r' r hb e ih =>
    obtain ⟨bs, L⟩ := ih
    obtain ⟨xs, ys, rfl, hbx⟩ := L.saved b hb
    obtain ⟨s', e', I, k1, -, -, -, hm⟩ := brk_cut hK L.inv hbx
    rw [e'] at e
    obtain ⟨rfl, -⟩ : s' = s ∧ 0 = r' := by simpa using e
    have hch := L.inv.chain
    have hmem : ∀ q k, (q, k) ∈ c.live.filter (fun x => x.1 < b) → (q, k) ∈ c.live ∧ q < b := fun q k hq => by
      simpa using hq
    refine ⟨xs, I, ?_, pair_filter _ L.nodup, ?_, ?_⟩
    · intro q k hq
      exact bLive_cut hch (L.live q k (hmem q k hq).1) (by have := (hmem q k hq).2; omega)
    · intro q k i x hq hi hs
      obtain ⟨hq, hlt⟩ := hmem q k hq
      have hbq := bLive_bounds (bchain_append.1 hch).1 (bLive_cut hch (L.live q k hq) (by omega))
      have := need_ge (n := k)
      have := le_pageUp b
      simp only at hs ⊢
      rw [hm _ (by omega)]
      exact L.shadow q k i x hq hi hs
    · intro x hx
      simp only [List.mem_filter, decide_eq_true_eq] at hx
      obtain ⟨us, vs, e1, e2⟩ := L.saved x hx.1
      obtain ⟨ws, e3⟩ := prefix_cut e1 (bchain_ge hch) (by omega)
      exact ⟨us, ws, e3, e2⟩
  | @freeAll c s r' r e ih =>
    obtain ⟨bs, L⟩ := ih
    obtain ⟨s', e', I, hk, -⟩ := freeBrk_spec hK L.inv
    rw [e'] at e
    obtain rfl : s' = s := by simpa using congrArg Prod.fst e
    refine ⟨[], I, by simp, by simp, by simp, ?_⟩
    intro b hb
    simp only [List.mem_filter, decide_eq_true_eq] at hb
    obtain ⟨us, vs, e1, e2⟩ := L.saved b hb.1
    exact ⟨[], [], rfl, by simp only [btotal]; omega⟩
  | @store c p n i b r hl hi ih =>
    obtain ⟨bs, L⟩ := ih
    have hbd := L.bounds hl
    have hll := L.live p n hl
    have hnn := need_ge (n := n)
    have hne : ∀ x, BHead K.start bs x → x ≠ p + i := by
      intro x hx he
      exact bhead_live L.inv.chain hll (by omega) (he ▸ hx)
    refine ⟨bs, ⟨?_, L.inv.cached, ?_, L.inv.mst, L.inv.bound⟩, L.live, L.nodup, ?_, L.saved⟩
    · exact bchain_congr L.inv.chain fun x hx => upd_ne (hne x hx)
    · intro x h1 h2
      simp only at h2 ⊢
      by_cases hx : x = p + i
      · rw [hx, upd_same]; simp
      · rw [upd_ne hx]; exact L.inv.mapd x h1 h2
    · intro q k j b' hq hj hs
      simp only at hs ⊢
      by_cases hx : q + j = p + i
      · rw [hx, upd_same] at hs ⊢; exact hs
      · rw [upd_ne hx] at hs ⊢; exact L.shadow q k j b' hq hj hs
  | @other c h r hc ih =>
    obtain ⟨bs, L⟩ := ih
    have h8 := bchain_ge L.inv.chain
    refine ⟨bs, ⟨?_, L.inv.cached, ?_, L.inv.mst, L.inv.bound⟩, L.live, L.nodup, ?_, L.saved⟩
    · exact bchain_congr L.inv.chain fun x hx => hc x (bhead_range hx h8).1
    · intro x h1 h2
      simp only at h2 ⊢
      rw [hc x h1]; exact L.inv.mapd x h1 h2
    · intro q k j b' hq hj hs
      have := L.bounds hq
      simp only at hs ⊢
      rw [hc _ (by omega)]
      exact L.shadow q k j b' hq hj hs

end Minilib

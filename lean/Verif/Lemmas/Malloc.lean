import Verif.Model.Malloc
/-
The arena seen as a list of blocks, and what malloc and free do to that list.
-/

set_option autoImplicit false

namespace Minilib
open Mem

/-! ### Header words -/

theorem bv_or_and (a b c : BitVec 32) : (a ||| b) &&& c = a &&& c ||| b &&& c := by
  apply BitVec.eq_of_getLsbD_eq
  intro i _
  simp only [BitVec.getLsbD_and, BitVec.getLsbD_or]
  cases a.getLsbD i <;> cases b.getLsbD i <;> cases c.getLsbD i <;> rfl

/-- Header of a block of `n` words. -/
def hdr (n : Nat) (fr q : Bool) : BitVec 32 :=
  BitVec.ofNat 32 n ||| (if fr then MBUF_FREE else 0#32) ||| (if q then MBUF_PREVISFREE else 0#32)

theorem ofNat_and_V {n : Nat} (h : n < 2 ^ 28) : BitVec.ofNat 32 n &&& MBUF_V = BitVec.ofNat 32 n := by
  rw [← BitVec.toNat_inj, BitVec.toNat_and, BitVec.toNat_ofNat, Nat.mod_eq_of_lt (by omega),
    show MBUF_V.toNat = 2 ^ 28 - 1 by rfl, Nat.and_two_pow_sub_one_eq_mod, Nat.mod_eq_of_lt h]

theorem and_V_toNat (x : BitVec 32) : (x &&& MBUF_V).toNat = x.toNat % 2 ^ 28 := by
  rw [BitVec.toNat_and, show MBUF_V.toNat = 2 ^ 28 - 1 by rfl, Nat.and_two_pow_sub_one_eq_mod]

theorem and_V_inj {x : BitVec 32} {n : Nat} (h : n < 2 ^ 28) (hx : x.toNat % 2 ^ 28 = n) :
    x &&& MBUF_V = BitVec.ofNat 32 n := by
  rw [← BitVec.toNat_inj, and_V_toNat, hx, BitVec.toNat_ofNat, Nat.mod_eq_of_lt (by omega)]

theorem hdr_and_V {n : Nat} (h : n < 2 ^ 28) (fr q : Bool) : hdr n fr q &&& MBUF_V = BitVec.ofNat 32 n := by
  unfold hdr
  rw [bv_or_and, bv_or_and, ofNat_and_V h]
  cases fr <;> cases q <;> simp [MBUF_V, MBUF_FREE, MBUF_PREVISFREE]

theorem hdr_toNat_mod {n : Nat} (h : n < 2 ^ 28) (fr q : Bool) : (hdr n fr q).toNat % 2 ^ 28 = n := by
  rw [← and_V_toNat, hdr_and_V h, BitVec.toNat_ofNat, Nat.mod_eq_of_lt (by omega)]

theorem hdr_and_V_toNat {n : Nat} (h : n < 2 ^ 28) (fr q : Bool) :
    (hdr n fr q &&& MBUF_V).toNat = n := by
  rw [and_V_toNat, hdr_toNat_mod h]

theorem ofNat_and_flag {n : Nat} (h : n < 2 ^ 28) (k : Nat) (hk : 28 ≤ k) :
    BitVec.ofNat 32 n &&& BitVec.ofNat 32 (2 ^ k) = 0#32 := by
  apply BitVec.eq_of_getLsbD_eq
  intro i hi
  simp only [BitVec.getLsbD_and, BitVec.getLsbD_ofNat, Nat.testBit_two_pow]
  by_cases hik : k = i
  · subst hik
    have : n.testBit k = false := Nat.testBit_lt_two_pow (Nat.lt_of_lt_of_le h (Nat.pow_le_pow_right (by omega) hk))
    simp [this]
  · simp [hik]

theorem hdr_and_FREE {n : Nat} (h : n < 2 ^ 28) (fr q : Bool) :
    hdr n fr q &&& MBUF_FREE ≠ 0#32 ↔ fr = true := by
  unfold hdr
  rw [bv_or_and, bv_or_and,
    show MBUF_FREE = BitVec.ofNat 32 (2 ^ 31) by rfl, ofNat_and_flag h 31 (by omega)]
  cases fr <;> cases q <;> simp [MBUF_FREE, MBUF_PREVISFREE]

theorem hdr_and_PREV {n : Nat} (h : n < 2 ^ 28) (fr q : Bool) :
    hdr n fr q &&& MBUF_PREVISFREE ≠ 0#32 ↔ q = true := by
  unfold hdr
  rw [bv_or_and, bv_or_and,
    show MBUF_PREVISFREE = BitVec.ofNat 32 (2 ^ 29) by rfl, ofNat_and_flag h 29 (by omega)]
  cases fr <;> cases q <;> simp [MBUF_FREE, MBUF_PREVISFREE]

theorem hdr_or_FREE (n : Nat) (fr q : Bool) : hdr n fr q ||| MBUF_FREE = hdr n true q := by
  unfold hdr
  cases fr <;> cases q <;> simp <;>
    apply BitVec.eq_of_getLsbD_eq <;> intro i _ <;> simp only [BitVec.getLsbD_or] <;>
    cases (BitVec.ofNat 32 n).getLsbD i <;> cases MBUF_FREE.getLsbD i <;>
    cases MBUF_PREVISFREE.getLsbD i <;> rfl

theorem hdr_or_PREV (n : Nat) (fr q : Bool) : hdr n fr q ||| MBUF_PREVISFREE = hdr n fr true := by
  unfold hdr
  cases fr <;> cases q <;> simp <;>
    apply BitVec.eq_of_getLsbD_eq <;> intro i _ <;> simp only [BitVec.getLsbD_or] <;>
    cases (BitVec.ofNat 32 n).getLsbD i <;> cases MBUF_FREE.getLsbD i <;>
    cases MBUF_PREVISFREE.getLsbD i <;> rfl

theorem hdr_merge {n k : Nat} (h : n + k < 2 ^ 28) (f1 q1 f2 q2 : Bool) :
    ((hdr n f1 q1 + hdr k f2 q2) &&& MBUF_V) ||| MBUF_FREE = hdr (n + k) true false := by
  have : (hdr n f1 q1 + hdr k f2 q2) &&& MBUF_V = BitVec.ofNat 32 (n + k) := by
    apply and_V_inj h
    have h1 := hdr_toNat_mod (show n < 2 ^ 28 by omega) f1 q1
    have h2 := hdr_toNat_mod (show k < 2 ^ 28 by omega) f2 q2
    rw [BitVec.toNat_add, Nat.mod_mod_of_dvd _ (by decide), Nat.add_mod, h1, h2, Nat.mod_eq_of_lt h]
  rw [this]
  simp [hdr]

theorem hdr_plain (n : Nat) : hdr n false false = BitVec.ofNat 32 n := by simp [hdr]

theorem ofNat_sub_one {n : Nat} (h1 : 1 ≤ n) (h : n < 2 ^ 28) :
    BitVec.ofNat 32 n - 1 = BitVec.ofNat 32 (n - 1) := by
  rw [← BitVec.toNat_inj]
  simp only [BitVec.toNat_sub, BitVec.toNat_ofNat]
  rw [Nat.mod_eq_of_lt (show n < 2 ^ 32 by omega), Nat.mod_eq_of_lt (show n - 1 < 2 ^ 32 by omega)]
  have : (1 : BitVec 32).toNat = 1 := rfl
  rw [this]
  omega

theorem ofNat_toInt {n : Nat} (h : n < 2 ^ 28) : (BitVec.ofNat 32 n).toInt = n := by
  rw [BitVec.toInt_eq_toNat_of_lt]
  · simp; omega
  · simp; omega

/-! ### The block list -/

/-- A block: length in words (header included) and whether it is free. -/
structure Blk where
  n : Nat
  fr : Bool

/-- Words in a list of blocks. -/
def total : List Blk → Nat
  | [] => 0
  | b :: bs => b.n + total bs

/-- Memory from `a` up to the sentinel word at `e` consists of the blocks `bs`.  `pf` says whether
the block below `a` is free (`none`: there is none, the flag is not maintained).  The sentinel of an
arena without blocks is arbitrary. -/
def Chain (m : Mem) : Nat → Option Bool → List Blk → Nat → Prop
  | a, pf, [], e => a = e ∧ ∃ w, m.HasW a w ∧ (pf = none ∨ w &&& MBUF_FREE = 0#32)
  | a, pf, b :: bs, e =>
    2 ≤ b.n ∧ (∃ q, m.HasW a (hdr b.n b.fr q) ∧ ∀ x, pf = some x → q = x) ∧
    (b.fr = true → m.HasW (a + 4 * (b.n - 1)) (BitVec.ofNat 32 (b.n - 1)) ∧ pf = some false) ∧
    Chain m (a + 4 * b.n) (some b.fr) bs e

/-- Payload (address, capacity in bytes) of the blocks in use. -/
def liveBlks : Nat → List Blk → List (Nat × Nat)
  | _, [] => []
  | a, b :: bs =>
    (if b.fr then [] else [(a + 4, 4 * (b.n - 1))]) ++ liveBlks (a + 4 * b.n) bs

/-- The addresses the allocator itself uses. -/
def Book : Nat → List Blk → Nat → Prop
  | a, [], x => a ≤ x ∧ x < a + 4
  | a, b :: bs, x => (a ≤ x ∧ x < a + 4) ∨
      (b.fr = true ∧ a + 4 * (b.n - 1) ≤ x ∧ x < a + 4 * b.n) ∨ Book (a + 4 * b.n) bs x

theorem HasW.congr {m m' : Mem} {a : Nat} {w : BitVec 32} (h : m.HasW a w)
    (he : ∀ x, a ≤ x → x < a + 4 → m' x = m x) : m'.HasW a w := by
  intro i hi
  rw [length_wordBytes] at hi
  rw [he _ (by omega) (by omega)]
  exact h i hi

theorem chain_congr {m m' : Mem} {bs : List Blk} {a e : Nat} {pf : Option Bool}
    (h : Chain m a pf bs e) (he : ∀ x, Book a bs x → m' x = m x) : Chain m' a pf bs e := by
  induction bs generalizing a pf with
  | nil =>
    obtain ⟨h1, w, h2, h3⟩ := h
    exact ⟨h1, w, HasW.congr h2 (fun x hx hx' => he x ⟨hx, hx'⟩), h3⟩
  | cons b bs ih =>
    obtain ⟨h1, ⟨q, h2, h2'⟩, h3, h4⟩ := h
    refine ⟨h1, ⟨q, HasW.congr h2 (fun x hx hx' => he x (Or.inl ⟨hx, hx'⟩)), h2'⟩, ?_,
      ih h4 (fun x hx => he x (Or.inr (Or.inr hx)))⟩
    intro hf
    refine ⟨HasW.congr (h3 hf).1 (fun x hx hx' => he x (Or.inr (Or.inl ⟨hf, hx, by omega⟩))),
      (h3 hf).2⟩

theorem chain_total {m : Mem} {bs : List Blk} {a e : Nat} {pf : Option Bool}
    (h : Chain m a pf bs e) : a + 4 * total bs = e := by
  induction bs generalizing a pf with
  | nil => simp [total, h.1]
  | cons b bs ih => have := ih h.2.2.2; simp only [total]; omega

theorem book_ge {bs : List Blk} {a x : Nat} (h : Book a bs x) : a ≤ x := by
  induction bs generalizing a with
  | nil => exact h.1
  | cons b bs ih =>
    rcases h with h | h | h
    · exact h.1
    · omega
    · have := ih h; omega

theorem liveBlks_bounds {bs : List Blk} {a q c : Nat} (h : (q, c) ∈ liveBlks a bs)
    (h2 : ∀ b ∈ bs, 2 ≤ b.n) : a + 4 ≤ q ∧ q + c ≤ a + 4 * total bs := by
  induction bs generalizing a with
  | nil => simp [liveBlks] at h
  | cons b bs ih =>
    have hb := h2 b (by simp)
    rw [liveBlks, List.mem_append] at h
    simp only [total]
    rcases h with h | h
    · split at h
      · simp at h
      · simp only [List.mem_singleton, Prod.mk.injEq] at h; omega
    · have := ih h (fun b hb => h2 b (by simp [hb])); omega

theorem chain_ge2 {m : Mem} {bs : List Blk} {a e : Nat} {pf : Option Bool}
    (h : Chain m a pf bs e) : ∀ b ∈ bs, 2 ≤ b.n := by
  induction bs generalizing a pf with
  | nil => simp
  | cons b bs ih =>
    intro x hx
    rcases List.mem_cons.1 hx with rfl | hx
    · exact h.1
    · exact ih h.2.2.2 x hx

/-- The payload of a live block contains no bookkeeping. -/
theorem book_live {bs : List Blk} {a q c x : Nat} (h : (q, c) ∈ liveBlks a bs)
    (h2 : ∀ b ∈ bs, 2 ≤ b.n) (hx : q ≤ x ∧ x < q + c) : ¬ Book a bs x := by
  induction bs generalizing a with
  | nil => simp [liveBlks] at h
  | cons b bs ih =>
    have hb := h2 b (by simp)
    have h2' : ∀ b ∈ bs, 2 ≤ b.n := fun b hb => h2 b (by simp [hb])
    rw [liveBlks, List.mem_append] at h
    rcases h with h | h
    · split at h
      · simp at h
      · rename_i hf
        simp only [List.mem_singleton, Prod.mk.injEq] at h
        rintro (h' | ⟨h', _⟩ | h')
        · omega
        · exact hf h'
        · have := book_ge h'; omega
    · have hge := (liveBlks_bounds h h2').1
      rintro (h' | ⟨h', h'', h3⟩ | h')
      · omega
      · omega
      · exact ih h h2' h'

/-! ### Splitting a block list -/

/-- Like `Chain` without the sentinel. -/
def Seg (m : Mem) : Nat → Option Bool → List Blk → Prop
  | _, _, [] => True
  | a, pf, b :: bs =>
    2 ≤ b.n ∧ (∃ q, m.HasW a (hdr b.n b.fr q) ∧ ∀ x, pf = some x → q = x) ∧
    (b.fr = true → m.HasW (a + 4 * (b.n - 1)) (BitVec.ofNat 32 (b.n - 1)) ∧ pf = some false) ∧
    Seg m (a + 4 * b.n) (some b.fr) bs

/-- Is the last block before the next one free? -/
def lastFr (pf : Option Bool) : List Blk → Option Bool
  | [] => pf
  | b :: bs => lastFr (some b.fr) bs

theorem total_append (xs ys : List Blk) : total (xs ++ ys) = total xs + total ys := by
  induction xs with
  | nil => simp [total]
  | cons b xs ih => simp [total, ih]; omega

theorem chain_append {m : Mem} {xs ys : List Blk} {a e : Nat} {pf : Option Bool} :
    Chain m a pf (xs ++ ys) e ↔
      Seg m a pf xs ∧ Chain m (a + 4 * total xs) (lastFr pf xs) ys e := by
  induction xs generalizing a pf with
  | nil => simp [Seg, total, lastFr]
  | cons b xs ih =>
    rw [List.cons_append, Chain, Seg, ih, total, lastFr]
    rw [show a + 4 * b.n + 4 * total xs = a + 4 * (b.n + total xs) by omega]
    constructor
    · rintro ⟨h1, h2, h3, h4, h5⟩; exact ⟨⟨h1, h2, h3, h4⟩, h5⟩
    · rintro ⟨⟨h1, h2, h3, h4⟩, h5⟩; exact ⟨h1, h2, h3, h4, h5⟩

theorem liveBlks_append (xs ys : List Blk) (a : Nat) :
    liveBlks a (xs ++ ys) = liveBlks a xs ++ liveBlks (a + 4 * total xs) ys := by
  induction xs generalizing a with
  | nil => simp [liveBlks, total]
  | cons b xs ih =>
    rw [List.cons_append, liveBlks, liveBlks, ih, total, List.append_assoc]
    rw [show a + 4 * b.n + 4 * total xs = a + 4 * (b.n + total xs) by omega]

theorem seg_congr {m m' : Mem} {xs : List Blk} {a : Nat} {pf : Option Bool}
    (h : Seg m a pf xs) (he : ∀ x, x < a + 4 * total xs → m' x = m x) : Seg m' a pf xs := by
  induction xs generalizing a pf with
  | nil => exact trivial
  | cons b xs ih =>
    obtain ⟨h1, ⟨q, h2, h2'⟩, h3, h4⟩ := h
    simp only [total] at he
    refine ⟨h1, ⟨q, HasW.congr h2 (fun x hx hx' => he x (by omega)), h2'⟩, ?_,
      ih h4 (fun x hx => he x (by omega))⟩
    intro hf
    exact ⟨HasW.congr (h3 hf).1 (fun x hx hx' => he x (by omega)), (h3 hf).2⟩

theorem lastFr_append (pf : Option Bool) (xs ys : List Blk) :
    lastFr pf (xs ++ ys) = lastFr (lastFr pf xs) ys := by
  induction xs generalizing pf with
  | nil => rfl
  | cons b xs ih => exact ih _

/-- Every live payload comes from a block of the list. -/
theorem liveBlks_split {bs : List Blk} {a p c : Nat} (h : (p, c) ∈ liveBlks a bs) :
    ∃ xs b ys, bs = xs ++ b :: ys ∧ b.fr = false ∧ p = a + 4 * total xs + 4 ∧ c = 4 * (b.n - 1) := by
  induction bs generalizing a with
  | nil => simp [liveBlks] at h
  | cons b bs ih =>
    rw [liveBlks, List.mem_append] at h
    rcases h with h | h
    · split at h
      · simp at h
      · rename_i hf
        simp only [List.mem_singleton, Prod.mk.injEq] at h
        exact ⟨[], b, bs, rfl, by simpa using hf, by simp [total, h.1], h.2⟩
    · obtain ⟨xs, b', ys, h1, h2, h3, h4⟩ := ih h
      exact ⟨b :: xs, b', ys, by simp [h1], h2, by simp only [total]; omega, h4⟩

/-- A block whose lower neighbour is not free may become the lowest one. -/
theorem chain_none {m : Mem} {bs : List Blk} {a e : Nat} {pf : Option Bool}
    (h : Chain m a pf bs e) (hf : ∀ b ys, bs = b :: ys → b.fr = false) : Chain m a none bs e := by
  cases bs with
  | nil =>
    obtain ⟨h1, w, hw, _⟩ := h
    exact ⟨h1, w, hw, .inl rfl⟩
  | cons b bs =>
    obtain ⟨h1, ⟨q, h2, _⟩, h3, h4⟩ := h
    refine ⟨h1, ⟨q, h2, by simp⟩, ?_, h4⟩
    intro hfr
    rw [hf b bs rfl] at hfr; simp at hfr

/-! ### freeNext -/

theorem and_FREE_or_PREV {w : BitVec 32} (h : w &&& MBUF_FREE = 0#32) :
    (w ||| MBUF_PREVISFREE) &&& MBUF_FREE = 0#32 := by
  rw [bv_or_and, h]; rfl

/-- After the merge with the lower neighbour: block of `n` words at `i` (its header possibly already
marked free), followed by `ys`. -/
theorem freeNext_spec {m : Mem} {i n e : Nat} {fr : Bool} {ys : List Blk}
    (hh : m.HasW i (hdr n fr false)) (hn : 2 ≤ n) (hc : Chain m (i + 4 * n) (some false) ys e)
    (hs : n + total ys < 2 ^ 28) (hm : m.Mapped i (4 * n)) :
    ∃ m' bs', freeNext m i = .ok m' ∧ Chain m' i (some false) bs' e ∧
      liveBlks i bs' = liveBlks (i + 4 * n) ys ∧
      (∀ x, x < i ∨ e + 4 ≤ x → m' x = m x) ∧
      (∀ q c x, (q, c) ∈ liveBlks (i + 4 * n) ys → q ≤ x → x < q + c → m' x = m x) ∧
      (∀ p k, m.Mapped p k → m'.Mapped p k) := by
  have hge2 := chain_ge2 hc
  have htot := chain_total hc
  unfold freeNext
  rw [loadW_eq hh, Res.ok_bind, hdr_and_V_toNat (by omega)]
  cases ys with
  | nil =>
    obtain ⟨he, w, hw, hwf⟩ := hc
    have hwf : w &&& MBUF_FREE = 0#32 := hwf.resolve_left (by simp)
    rw [show ((i : Int) + 4 * (n : Int)) = ((i + 4 * n : Nat) : Int) by omega, loadW_eq hw, Res.ok_bind,
      if_neg (by simp [hwf])]
    rw [show ((i : Int) + 4 * ((n : Int) - 1)) = ((i + 4 * (n - 1) : Nat) : Int) by omega,
      hdr_and_V (by omega), ofNat_sub_one (by omega) (by omega),
      storeW_eq _ (fun j hj => by
        have := hm (4 * (n - 1) + j) (by omega)
        rwa [← Nat.add_assoc] at this), Res.ok_bind]
    have h1 := hh.write (q := i + 4 * (n - 1)) (l := wordBytes (BitVec.ofNat 32 (n - 1)))
      (by right; omega)
    have h2 := hw.write (q := i + 4 * (n - 1)) (l := wordBytes (BitVec.ofNat 32 (n - 1)))
      (by left; simp; omega)
    rw [loadW_eq h1, Res.ok_bind, hdr_and_V_toNat (by omega),
      show ((i : Int) + 4 * (n : Int)) = ((i + 4 * n : Nat) : Int) by omega, loadW_eq h2,
      Res.ok_bind, storeW_eq _ h2.mapped, Res.ok_bind]
    have h3 := h1.write (q := i + 4 * n) (l := wordBytes (w ||| MBUF_PREVISFREE)) (by right; omega)
    rw [loadW_eq h3, Res.ok_bind, hdr_or_FREE, storeW_eq _ h3.mapped]
    refine ⟨_, [⟨n, true⟩], rfl, ?_, by simp [liveBlks], ?_, by simp [liveBlks],
      fun p k h => ((h.write _ _).write _ _).write _ _⟩
    · refine ⟨hn, ⟨false, hasW_write_same _ _ _, by simp⟩, ?_, ?_⟩
      · intro _
        refine ⟨?_, rfl⟩
        refine HasW.write (HasW.write (hasW_write_same _ _ _) ?_) ?_ <;> simp <;> omega
      · refine ⟨he, _, HasW.write (hasW_write_same _ _ _) ?_, .inr (and_FREE_or_PREV hwf)⟩
        left; simp; omega
    · intro x hx
      rw [write_outside _ _ _ _ (by simp; omega), write_outside _ _ _ _ (by simp; omega),
        write_outside _ _ _ _ (by simp; omega)]
  | cons b ys =>
    obtain ⟨bn, bfr⟩ := b
    simp only [total] at hs htot
    obtain ⟨hb2, ⟨q, hbh, hq⟩, hbf, hrest⟩ := hc
    simp only at hb2 hbh hbf hrest
    have hq : q = false := hq false rfl
    subst hq
    rw [show ((i : Int) + 4 * (n : Int)) = ((i + 4 * n : Nat) : Int) by omega, loadW_eq hbh, Res.ok_bind]
    cases bfr with
    | true =>
      rw [if_pos ((hdr_and_FREE (by omega) _ _).2 rfl)]
      rw [hdr_merge (by omega), storeW_eq _ hh.mapped, Res.ok_bind,
        loadW_eq (hasW_write_same _ _ _), Res.ok_bind, hdr_and_V_toNat (by omega),
        hdr_and_V (by omega), ofNat_sub_one (by omega) (by omega),
        show ((i : Int) + 4 * (((n + bn : Nat) : Int) - 1)) = ((i + 4 * (n + bn - 1) : Nat) : Int) by omega]
      have hfoot : (m.write i (wordBytes (hdr (n + bn) true false))).Mapped (i + 4 * (n + bn - 1)) 4 := by
        have h := (hbf rfl).1.mapped.write i (wordBytes (hdr (n + bn) true false))
        rwa [show i + 4 * n + 4 * (bn - 1) = i + 4 * (n + bn - 1) by omega] at h
      rw [storeW_eq _ hfoot]
      refine ⟨_, ⟨n + bn, true⟩ :: ys, rfl, ?_, ?_, ?_, ?_, fun p k h => (h.write _ _).write _ _⟩
      · refine ⟨by simp only; omega, ⟨false, ?_, by simp⟩, ?_, ?_⟩
        · refine HasW.write (hasW_write_same _ _ _) ?_; right; omega
        · intro _; exact ⟨hasW_write_same _ _ _, rfl⟩
        · have e1 : i + 4 * (n + bn) = i + 4 * n + 4 * bn := by omega
          simp only [e1]
          apply chain_congr hrest
          intro x hx
          have := book_ge hx
          rw [write_outside _ _ _ _ (by simp; omega), write_outside _ _ _ _ (by simp; omega)]
      · simp only [liveBlks, if_true, List.nil_append]
        congr 1; omega
      · intro x hx
        have := chain_total hrest
        rw [write_outside _ _ _ _ (by simp; omega), write_outside _ _ _ _ (by simp; omega)]
      · intro q c x hqc h1 h2
        simp only [liveBlks, if_true, List.nil_append] at hqc
        have := (liveBlks_bounds hqc (fun b hb => hge2 b (by simp [hb]))).1
        rw [write_outside _ _ _ _ (by simp; omega), write_outside _ _ _ _ (by simp; omega)]
    | false =>
      rw [if_neg (by rw [hdr_and_FREE (by omega)]; simp)]
      rw [show ((i : Int) + 4 * ((n : Int) - 1)) = ((i + 4 * (n - 1) : Nat) : Int) by omega,
        hdr_and_V (by omega), ofNat_sub_one (by omega) (by omega),
        storeW_eq _ (fun j hj => by
          have := hm (4 * (n - 1) + j) (by omega)
          rwa [← Nat.add_assoc] at this), Res.ok_bind]
      have h1 := hh.write (q := i + 4 * (n - 1)) (l := wordBytes (BitVec.ofNat 32 (n - 1)))
        (by right; omega)
      have h2 := hbh.write (q := i + 4 * (n - 1)) (l := wordBytes (BitVec.ofNat 32 (n - 1)))
        (by left; simp; omega)
      rw [loadW_eq h1, Res.ok_bind, hdr_and_V_toNat (by omega),
        show ((i : Int) + 4 * (n : Int)) = ((i + 4 * n : Nat) : Int) by omega, loadW_eq h2,
        Res.ok_bind, storeW_eq _ h2.mapped, Res.ok_bind]
      have h3 := h1.write (q := i + 4 * n) (l := wordBytes (hdr bn false false ||| MBUF_PREVISFREE))
        (by right; omega)
      rw [loadW_eq h3, Res.ok_bind, hdr_or_FREE, storeW_eq _ h3.mapped, hdr_or_PREV]
      refine ⟨_, ⟨n, true⟩ :: ⟨bn, false⟩ :: ys, rfl, ?_, by simp [liveBlks], ?_, ?_,
        fun p k h => ((h.write _ _).write _ _).write _ _⟩
      · refine ⟨hn, ⟨false, hasW_write_same _ _ _, by simp⟩, ?_, ?_⟩
        · intro _
          refine ⟨?_, rfl⟩
          refine HasW.write (HasW.write (hasW_write_same _ _ _) ?_) ?_ <;> simp <;> omega
        · refine ⟨hb2, ⟨true, ?_, by simp⟩, by simp, ?_⟩
          · refine HasW.write (hasW_write_same _ _ _) ?_
            left; simp; omega
          · apply chain_congr hrest
            intro x hx
            have := book_ge hx
            rw [write_outside _ _ _ _ (by simp; omega), write_outside _ _ _ _ (by simp; omega),
              write_outside _ _ _ _ (by simp; omega)]
      · intro x hx
        rw [write_outside _ _ _ _ (by simp; omega), write_outside _ _ _ _ (by simp; omega),
          write_outside _ _ _ _ (by simp; omega)]
      · intro q c x hqc g1 g2
        have := (liveBlks_bounds hqc hge2).1
        rw [write_outside _ _ _ _ (by simp; omega), write_outside _ _ _ _ (by simp; omega),
          write_outside _ _ _ _ (by simp; omega)]


/-! ### freePrev -/

theorem freePrev_live {m : Mem} {i n : Nat} (hn : n < 2 ^ 28) (hh : m.HasW i (hdr n false false)) :
    freePrev m i = .ok (m, i) := by
  unfold freePrev
  rw [loadW_eq hh, Res.ok_bind, if_neg (by rw [hdr_and_PREV hn]; simp)]
  rfl

theorem freePrev_free {m : Mem} {i n k : Nat} {q : Bool} (hk : 2 ≤ k) (hn : k + n < 2 ^ 28)
    (hh : m.HasW (i + 4 * k) (hdr n false true)) (hf : m.HasW (i + 4 * (k - 1)) (BitVec.ofNat 32 (k - 1)))
    (hp : m.HasW i (hdr k true q)) :
    freePrev m ((i + 4 * k : Nat) : Int)
      = .ok (m.write i (wordBytes (hdr (k + n) true false)), (i : Int)) := by
  unfold freePrev
  rw [loadW_eq hh, Res.ok_bind, if_pos ((hdr_and_PREV (by omega) _ _).2 rfl),
    show ((i + 4 * k : Nat) : Int) - 4 = ((i + 4 * (k - 1) : Nat) : Int) by omega, loadW_eq hf,
    Res.ok_bind, ofNat_toInt (by omega)]
  simp only
  rw [show ((i + 4 * k : Nat) : Int) + 4 * (-((k - 1 : Nat) : Int) - 1) = (i : Int) by omega,
    loadW_eq hp, Res.ok_bind, hdr_merge hn, storeW_eq _ hp.mapped, Res.ok_bind,
    loadW_eq (hf.write (q := i) (l := wordBytes (hdr (k + n) true false)) (by left; simp; omega)),
    Res.ok_bind, ofNat_toInt (by omega)]
  show Res.ok (_, _) = _
  congr 2
  omega

/-! ### free -/

/-- The allocator's state is the block list `bs`. -/
structure HeapOk (A : Arena) (h : Heap) (bs : List Blk) : Prop where
  base4 : A.base % 4 = 0
  base0 : 0 < A.base
  size4 : A.size % 4 = 0
  sizeLt : A.size < 2 ^ 30
  sizeGe : 4 ≤ A.size
  mb0 : 0 ≤ h.mbufsize
  mb4 : h.mbufsize % 4 = 0
  mapped : h.mem.Mapped A.base A.size
  chain : Chain h.mem (A.base + h.mbufsize.toNat) none bs (A.base + A.size - 4)
  reserve : bs ≠ [] → 64 ≤ h.mbufsize

theorem lastFr_some {xs : List Blk} (h : xs ≠ []) (pf : Option Bool) :
    (∃ ys n, xs = ys ++ [⟨n, true⟩] ∧ lastFr pf xs = some true) ∨
    (∃ ys n, xs = ys ++ [⟨n, false⟩] ∧ lastFr pf xs = some false) := by
  rcases List.eq_nil_or_concat xs with h' | ⟨ys, ⟨n, fr⟩, rfl⟩
  · exact absurd h' h
  · rw [List.concat_eq_append]
    cases fr
    · right; exact ⟨ys, n, rfl, by rw [lastFr_append]; rfl⟩
    · left; exact ⟨ys, n, rfl, by rw [lastFr_append]; rfl⟩

theorem mem_liveBlks_mid {xs ys : List Blk} {a n : Nat}
    (hx : ∀ b ∈ xs ++ ⟨n, false⟩ :: ys, 2 ≤ b.n) (y : Nat × Nat) :
    y ∈ liveBlks a (xs ++ ⟨n, false⟩ :: ys) ∧ y.1 ≠ a + 4 * total xs + 4 ↔
      y ∈ liveBlks a xs ∨ y ∈ liveBlks (a + 4 * total xs + 4 * n) ys := by
  have hn : 2 ≤ n := hx ⟨n, false⟩ (by simp)
  rw [liveBlks_append, List.mem_append, liveBlks]
  simp only [Bool.false_eq_true, if_false, List.mem_append, List.mem_singleton]
  constructor
  · rintro ⟨h | rfl | h, h'⟩
    · exact Or.inl h
    · simp at h'
    · exact Or.inr h
  · rintro (h | h)
    · obtain ⟨q, c⟩ := y
      refine ⟨Or.inl h, ?_⟩
      obtain ⟨us, b, vs, h1, h2, h3, h4⟩ := liveBlks_split h
      subst h1
      have := hx b (by simp)
      simp only [total_append, total]
      omega
    · obtain ⟨q, c⟩ := y
      refine ⟨Or.inr (Or.inr h), ?_⟩
      have := (liveBlks_bounds h (fun b hb => hx b (by simp [hb]))).1
      simp only
      omega

theorem free_spec {A : Arena} {h : Heap} {bs : List Blk} (ok : HeapOk A h bs) {p c : Nat}
    (hp : (p, c) ∈ liveBlks (A.base + h.mbufsize.toNat) bs) :
    ∃ h' bs', free A h p = .ok h' ∧ HeapOk A h' bs' ∧ h.mbufsize ≤ h'.mbufsize ∧
      (∀ y, y ∈ liveBlks (A.base + h'.mbufsize.toNat) bs' ↔
        y ∈ liveBlks (A.base + h.mbufsize.toNat) bs ∧ y.1 ≠ p) ∧
      (∀ x, x < A.base + h.mbufsize.toNat ∨ A.base + A.size ≤ x → h'.mem x = h.mem x) ∧
      (∀ q d x, (q, d) ∈ liveBlks (A.base + h.mbufsize.toNat) bs → q ≠ p → q ≤ x → x < q + d →
        h'.mem x = h.mem x) := by
  obtain ⟨mem, mb⟩ := h
  have hb4 := ok.base4
  have hb0 := ok.base0
  have hs4 := ok.size4
  have hsl := ok.sizeLt
  have hsg := ok.sizeGe
  have hmb0 := ok.mb0
  have hmb4 := ok.mb4
  have hmap := ok.mapped
  have hch := ok.chain
  have hres := ok.reserve
  simp only at hmb0 hmb4 hmap hch hres hp ⊢
  obtain ⟨k, rfl⟩ : ∃ k : Nat, mb = 4 * (k : Int) := ⟨(mb / 4).toNat, by omega⟩
  rw [show ((4 * (k : Int)).toNat) = 4 * k by omega] at *
  have hge2 := chain_ge2 hch
  have htot := chain_total hch
  obtain ⟨xs, ⟨n, fr⟩, ys, rfl, hfr, hpe, rfl⟩ := liveBlks_split hp
  simp only at hfr
  subst hfr
  have hr64 := hres (by simp)
  have hn2 : 2 ≤ n := hge2 ⟨n, false⟩ (by simp)
  rw [total_append, total] at htot
  rw [chain_append] at hch
  obtain ⟨hseg, hcb⟩ := hch
  obtain ⟨-, ⟨q, hhd, hq⟩, -, hrest⟩ := hcb
  simp only at hhd hrest hpe htot
  unfold free
  rw [if_neg (by omega)]
  simp only
  cases xs with
  | nil =>
    simp only [total, Nat.mul_zero, Nat.add_zero] at hhd hrest htot hpe
    have hmb : (A.base : Int) + 4 * (k : Int) = (p : Int) - 4 := by omega
    rw [if_pos hmb, ← hmb, show (A.base : Int) + 4 * (k : Int) = ((A.base + 4 * k : Nat) : Int) by omega,
      loadW_eq hhd, Res.ok_bind, hdr_and_V_toNat (by omega), if_neg (by omega),
      show A.word (4 * (k : Int) + 4 * (n : Int)) = ((A.base + 4 * k + 4 * n : Nat) : Int) by
        unfold Arena.word; omega]
    have hlive : ∀ y, y ∈ liveBlks (A.base + 4 * k + 4 * n) ys ↔
        y ∈ liveBlks (A.base + 4 * k) ([] ++ ⟨n, false⟩ :: ys) ∧ y.1 ≠ p := by
      intro y
      have := mem_liveBlks_mid (xs := []) hge2 (a := A.base + 4 * k) y
      simp only [total, Nat.mul_zero, Nat.add_zero, liveBlks, List.not_mem_nil, false_or] at this
      rw [hpe]
      exact this.symm
    cases ys with
    | nil =>
      obtain ⟨he, w, hw, hwf⟩ := hrest
      have hwf : w &&& MBUF_FREE = 0#32 := hwf.resolve_left (by simp)
      rw [loadW_eq hw, Res.ok_bind, if_neg (by simp [hwf])]
      refine ⟨_, [], rfl, ?_, by simp only; omega, ?_, by simp, by simp⟩
      · refine ⟨hb4, hb0, hs4, hsl, hsg, by simp only; omega, by simp only; omega, hmap, ?_, by simp⟩
        simp only
        rw [show A.base + (4 * (k : Int) + 4 * (n : Int)).toNat = A.base + 4 * k + 4 * n by omega]
        exact ⟨he, w, hw, .inr hwf⟩
      · simp only
        rw [show A.base + (4 * (k : Int) + 4 * (n : Int)).toNat = A.base + 4 * k + 4 * n by omega]
        exact hlive
    | cons b ys =>
      obtain ⟨bn, bfr⟩ := b
      have hc0 := hrest
      obtain ⟨hb2, ⟨q', hbh, hq'⟩, hbf, hrest'⟩ := hrest
      simp only [total] at htot hb2 hbh hbf hrest'
      rw [loadW_eq hbh, Res.ok_bind]
      cases bfr with
      | false =>
        rw [if_neg (by rw [hdr_and_FREE (by omega)]; simp)]
        refine ⟨_, ⟨bn, false⟩ :: ys, rfl, ?_, by simp only; omega, ?_, by simp, by simp⟩
        rotate_left
        · simp only
          rw [show A.base + (4 * (k : Int) + 4 * (n : Int)).toNat = A.base + 4 * k + 4 * n by omega]
          exact hlive
        · refine ⟨hb4, hb0, hs4, hsl, hsg, by simp only; omega, by simp only; omega, hmap, ?_,
            fun _ => by simp only; omega⟩
          simp only
          rw [show A.base + (4 * (k : Int) + 4 * (n : Int)).toNat = A.base + 4 * k + 4 * n by omega]
          exact chain_none hc0 (by rintro b _ ⟨rfl, rfl⟩; rfl)
      | true =>
        rw [if_pos ((hdr_and_FREE (by omega) _ _).2 rfl), hdr_and_V_toNat (by omega)]
        have e1 : A.base + (4 * (k : Int) + 4 * (n : Int) + 4 * (bn : Int)).toNat
            = A.base + 4 * k + 4 * n + 4 * bn := by omega
        refine ⟨_, ys, rfl, ?_, by simp only; omega, ?_, by simp, by simp⟩
        · refine ⟨hb4, hb0, hs4, hsl, hsg, by simp only; omega, by simp only; omega, hmap, ?_,
            fun _ => by simp only; omega⟩
          simp only
          rw [e1]
          refine chain_none hrest' ?_
          rintro b zs rfl
          cases hbfr : b.fr with
          | false => rfl
          | true => have := (hrest'.2.2.1 hbfr).2; simp at this
        · intro y
          rw [← hlive y]
          simp only [e1, liveBlks, if_true, List.nil_append]
  | cons x0 xs0 =>
    have hx02 := hge2 x0 (by simp)
    generalize hxs : x0 :: xs0 = xs at *
    have hne : xs ≠ [] := by rw [← hxs]; simp
    have htx : 2 ≤ total xs := by rw [← hxs]; simp only [total]; omega
    rw [if_neg (by omega)]
    have hi : (p : Int) - 4 = ((A.base + 4 * k + 4 * total xs : Nat) : Int) := by omega
    rw [hi]
    rcases lastFr_some hne none with ⟨us, j, hus, hlast⟩ | ⟨us, j, hus, hlast⟩
    · -- the lower neighbour is free
      have hq1 := hq true hlast
      subst hq1
      subst hus
      have hj2 : 2 ≤ j := hge2 ⟨j, true⟩ (by simp)
      have hseg0 := hseg
      rw [← List.append_nil (us ++ [_])] at hseg
      obtain ⟨hsu, hpb⟩ : Seg mem (A.base + 4 * k) none us ∧
          Seg mem (A.base + 4 * k + 4 * total us) (lastFr none us) [⟨j, true⟩] := by
        clear hseg
        have : ∀ (us : List Blk) a pf, Seg mem a pf (us ++ [⟨j, true⟩]) →
            Seg mem a pf us ∧ Seg mem (a + 4 * total us) (lastFr pf us) [⟨j, true⟩] := by
          intro us
          induction us with
          | nil => intro a pf h; exact ⟨trivial, by simpa [total, lastFr] using h⟩
          | cons b us ih =>
            intro a pf ⟨h1, h2, h3, h4⟩
            obtain ⟨h5, h6⟩ := ih _ _ h4
            refine ⟨⟨h1, h2, h3, h5⟩, ?_⟩
            rw [total, lastFr, show a + 4 * (b.n + total us) = a + 4 * b.n + 4 * total us by omega]
            exact h6
        exact this _ _ _ hseg0
      obtain ⟨-, ⟨pq, hph, hpq⟩, hpf, -⟩ := hpb
      obtain ⟨hfoot, hpl⟩ := hpf rfl
      simp only [total_append, total, Nat.add_zero] at *
      generalize hbi : A.base + 4 * k + 4 * total us = i at *
      have e2 : A.base + 4 * k + 4 * (total us + j) = i + 4 * j := by omega
      rw [e2] at hhd hrest hpe ⊢
      rw [freePrev_free (n := n) hj2 (by omega) hhd hfoot hph, Res.ok_bind]
      simp only
      obtain ⟨m', bs', h1, h2, h3, h4, h5, h6⟩ := freeNext_spec (n := j + n) (fr := true) (ys := ys)
        (e := A.base + A.size - 4) (hasW_write_same mem i (hdr (j + n) true false)) (by omega)
        (by
          rw [show i + 4 * (j + n) = i + 4 * j + 4 * n by omega]
          apply chain_congr hrest
          intro x hx
          have := book_ge hx
          rw [write_outside _ _ _ _ (by simp; omega)])
        (by omega)
        (by
          apply Mapped.write
          intro t ht
          have := hmap (i - A.base + t) (by omega)
          rwa [show A.base + (i - A.base + t) = i + t by omega] at this)
      rw [h1, Res.ok_bind]
      rw [show i + 4 * (j + n) = i + 4 * j + 4 * n by omega] at h3 h5
      have hlive : ∀ y, y ∈ liveBlks (A.base + 4 * k) (us ++ bs') ↔
        y ∈ liveBlks (A.base + 4 * k) (us ++ [⟨j, true⟩] ++ ⟨n, false⟩ :: ys) ∧ y.1 ≠ p := by
        intro y
        have := mem_liveBlks_mid (xs := us ++ [⟨j, true⟩]) hge2 (a := A.base + 4 * k) y
        simp only [total_append, total, Nat.add_zero] at this
        rw [e2] at this
        rw [hpe, this, liveBlks_append, List.mem_append, hbi, h3, liveBlks_append us [_],
          List.mem_append, hbi]
        simp [liveBlks]
      refine ⟨_, us ++ bs', rfl, ?_, by simp, ?_, ?_, ?_⟩
      · refine ⟨hb4, hb0, hs4, hsl, hsg, hmb0, hmb4, h6 _ _ (hmap.write _ _), ?_, fun _ => hr64⟩
        simp only
        rw [show A.base + (4 * (k : Int)).toNat = A.base + 4 * k by omega, chain_append, hbi, hpl]
        refine ⟨seg_congr hsu ?_, h2⟩
        intro x hx
        rw [hbi] at hx
        rw [h4 x (by omega), write_outside _ _ _ _ (by simp; omega)]
      · simp only
        rw [show A.base + (4 * (k : Int)).toNat = A.base + 4 * k by omega]
        exact hlive
      · intro x hx
        simp only
        rw [h4 x (by omega), write_outside _ _ _ _ (by simp; omega)]
      · intro r d x hr hrp hx1 hx2
        simp only
        have hrl := (mem_liveBlks_mid (xs := us ++ [⟨j, true⟩]) hge2 (a := A.base + 4 * k) (r, d)).1
          ⟨hr, by simp only [total_append, total, Nat.add_zero]; rw [e2]; omega⟩
        simp only [total_append, total, Nat.add_zero] at hrl
        rw [e2] at hrl
        rcases hrl with hrl | hrl
        · rw [liveBlks_append, List.mem_append] at hrl
          simp only [liveBlks, if_true, List.append_nil, List.not_mem_nil, or_false] at hrl
          have := (liveBlks_bounds hrl (fun b hb => hge2 b (by simp [hb]))).2
          rw [h4 x (by omega), write_outside _ _ _ _ (by simp; omega)]
        · have := (liveBlks_bounds hrl (fun b hb => hge2 b (by simp [hb]))).1
          rw [h5 r d x hrl hx1 hx2, write_outside _ _ _ _ (by simp; omega)]
    · -- the lower neighbour is in use
      have hq1 := hq false hlast
      subst hq1
      generalize hbi : A.base + 4 * k + 4 * total xs = i at *
      rw [freePrev_live (by omega) hhd, Res.ok_bind]
      simp only
      obtain ⟨m', bs', h1, h2, h3, h4, h5, h6⟩ := freeNext_spec (ys := ys)
        (e := A.base + A.size - 4) hhd hn2 hrest (by omega)
        (by
          intro t ht
          have := hmap (i - A.base + t) (by omega)
          rwa [show A.base + (i - A.base + t) = i + t by omega] at this)
      rw [h1, Res.ok_bind]
      have hmid := mem_liveBlks_mid (xs := xs) hge2 (a := A.base + 4 * k)
      rw [hbi] at hmid
      refine ⟨_, xs ++ bs', rfl, ?_, by simp, ?_, ?_, ?_⟩
      · refine ⟨hb4, hb0, hs4, hsl, hsg, hmb0, hmb4, h6 _ _ hmap, ?_, fun _ => hr64⟩
        simp only
        rw [show A.base + (4 * (k : Int)).toNat = A.base + 4 * k by omega, chain_append, hbi, hlast]
        refine ⟨seg_congr hseg ?_, h2⟩
        intro x hx
        rw [hbi] at hx
        exact h4 x (by omega)
      · intro y
        simp only
        rw [show A.base + (4 * (k : Int)).toNat = A.base + 4 * k by omega, hpe, hmid y,
          liveBlks_append, List.mem_append, hbi, h3]
      · intro x hx
        exact h4 x (by omega)
      · intro r d x hr hrp hx1 hx2
        rcases (hmid (r, d)).1 ⟨hr, by simp only; omega⟩ with hrl | hrl
        · have := (liveBlks_bounds hrl (fun b hb => hge2 b (by simp [hb]))).2
          exact h4 x (by omega)
        · exact h5 r d x hrl hx1 hx2

end Minilib

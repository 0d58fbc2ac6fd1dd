import Verif.Lemmas.ConvBase
/-
Lemmas about itohex, itobin and itooct.
-/

set_option autoImplicit false

namespace Minilib
open Mem Spec

/-! ### itohex -/

theorem itohexConv_eq (i : BitVec 32) (k : Nat) (hk : k < 8) :
    itohexConv i (k / 2) (1 - k % 2) = i.toNat / 16 ^ k % 16 := by
  have key : itohexConv i (k / 2) (1 - k % 2) = (i.extractLsb' (4 * k) 4).toNat := by
    unfold itohexConv
    have : ((if 1 - k % 2 = 0 then (i &&& 0xf0f0f0f0#32) >>> 4 else i &&& 0x0f0f0f0f#32).extractLsb'
        (8 * (k / 2)) 8) = (i.extractLsb' (4 * k) 4).setWidth 8 := by
      apply BitVec.eq_of_getLsbD_eq
      intro j hj
      interval_cases k <;> interval_cases j <;>
        simp [BitVec.getLsbD_extractLsb', BitVec.getLsbD_setWidth]
    rw [this]
    rw [BitVec.toNat_setWidth]
    exact Nat.mod_eq_of_lt (lt_of_lt_of_le (i.extractLsb' (4 * k) 4).isLt (by norm_num))
  rw [key, BitVec.extractLsb'_toNat, Nat.shiftRight_eq_div_pow, Nat.pow_mul]

/-- Positions still to be visited when `k` nibbles are left. -/
def hexPos : Nat → List (Nat × Nat)
  | 0 => []
  | k + 1 => (k / 2, 1 - k % 2) :: hexPos k

theorem hexPos_eight : hexPos 8 = [(3, 0), (3, 1), (2, 0), (2, 1), (1, 0), (1, 1), (0, 0), (0, 1)] := by
  decide

theorem hexChar (caps : Bool) {c : Nat} (h : c < 16) :
    BitVec.ofNat 8 (if c < 10 then c + 48 else c + (if caps then 55 else 87)) = digitChar caps c := by
  revert c; cases caps <;> decide

theorem itohexLoop_all {i : BitVec 32} {caps : Bool} {buf k : Nat} (hk : k ≤ 8) :
    ∀ {m : Mem} {p : Nat}, m.Mapped (buf + p) k →
      itohexLoop i (if caps then 55 else 87) buf (hexPos k) m p 0
        = .ok (m.write (buf + p) ((fixDigits 16 k i.toNat).map (digitChar caps)), p + k) := by
  induction k with
  | zero => intro m p _; simp [hexPos, itohexLoop, fixDigits]
  | succ k ih =>
    intro m p hm
    have hc : i.toNat / 16 ^ k % 16 < 16 := Nat.mod_lt _ (by omega)
    obtain ⟨hs, hm'⟩ := store_step hm (digitChar caps (i.toNat / 16 ^ k % 16))
    rw [hexPos, itohexLoop, itohexConv_eq i k (by omega)]
    simp only [ne_eq, not_true_eq_false, false_and, if_false, if_true, hexChar caps hc, hs, Res.ok_bind]
    rw [ih (by omega) hm']
    simp only [fixDigits, List.map_cons, write_cons]
    rw [show buf + (p + 1) = buf + p + 1 by omega]
    simp; omega

theorem itohexLoop_skip {i : BitVec 32} {caps : Bool} {buf k w : Nat} (hk : k ≤ 8) (h1 : 1 ≤ w)
    (hw : w ≤ k) : ∀ {m : Mem} {p : Nat}, i.toNat % 16 ^ k = i.toNat →
      m.Mapped (buf + p) (max w (nd 16 i.toNat)) →
      itohexLoop i (if caps then 55 else 87) buf (hexPos k) m p ((w : Int) - k)
        = .ok (m.write (buf + p) ((fixDigits 16 (max w (nd 16 i.toNat)) i.toNat).map (digitChar caps)),
            p + max w (nd 16 i.toNat)) := by
  induction k with
  | zero => omega
  | succ k ih =>
    intro m p hmod hm
    have hlt : i.toNat < 16 ^ (k + 1) := by rw [← hmod]; exact Nat.mod_lt _ (Nat.pow_pos (by omega))
    by_cases hwk : w = k + 1 ∨ 16 ^ k ≤ i.toNat
    · have hW : max w (nd 16 i.toNat) = k + 1 := by
        have := nd_le (by omega) hlt
        rcases hwk with h | h
        · omega
        · have := nd_big (by omega) h hlt; omega
      rw [hW] at hm ⊢
      rcases Nat.lt_or_ge w (k + 1) with h | h
      · -- the first non-zero digit
        have hge : 16 ^ k ≤ i.toNat := by omega
        have hc : i.toNat / 16 ^ k % 16 < 16 := Nat.mod_lt _ (by omega)
        have hc0 : i.toNat / 16 ^ k % 16 ≠ 0 := by
          have h2 : i.toNat / 16 ^ k < 16 := by
            rw [Nat.div_lt_iff_lt_mul (Nat.pow_pos (by omega))]; rw [Nat.pow_succ] at hlt; omega
          have h3 : 1 ≤ i.toNat / 16 ^ k := by
            rw [Nat.le_div_iff_mul_le (Nat.pow_pos (by omega))]; omega
          omega
        obtain ⟨hs, hm'⟩ := store_step hm (digitChar caps (i.toNat / 16 ^ k % 16))
        rw [hexPos, itohexLoop, itohexConv_eq i k (by omega)]
        rw [if_pos (show (w : Int) - (k + 1 : Nat) ≠ 0 ∧ i.toNat / 16 ^ k % 16 ≠ 0 from ⟨by omega, hc0⟩)]
        simp only [if_true, hexChar caps hc, hs, Res.ok_bind]
        rw [itohexLoop_all (p := p + 1) (by omega) hm']
        simp only [fixDigits, List.map_cons, write_cons]
        rw [show buf + (p + 1) = buf + p + 1 by omega]
        simp; omega
      · rw [show (w : Int) - (k + 1 : Nat) = 0 by omega]
        exact itohexLoop_all hk hm
    · have hlt' : i.toNat < 16 ^ k := by omega
      rw [hexPos, itohexLoop, itohexConv_eq i k (by omega), Nat.div_eq_of_lt hlt']
      simp only [Nat.zero_mod, ne_eq, not_true_eq_false, and_false, if_false]
      rw [if_neg (by omega), show (w : Int) - (k + 1 : Nat) + 1 = w - k by omega]
      exact ih (by omega) (by omega) (Nat.mod_eq_of_lt hlt') hm

theorem itohex_eq {m : Mem} {i : BitVec 32} {buf : Nat} {padding capitals : Int} {caps : Bool}
    (hc : caps = decide (capitals > 0))
    (hp1 : INT_MIN + 8 ≤ padding) (hp2 : padding ≤ 8) {out : List Byte}
    (ho : out = padTo padding 48#8 ((digitsOf 16 i.toNat).map (digitChar caps)))
    (hm : m.Mapped buf (out.length + 1)) :
    itohex_ m i buf padding capitals = .ok (m.write buf (out ++ [0#8]), out.length) := by
  have hpos : 0 < (digitsOf 16 i.toNat).length := List.length_pos_iff.2 (digitsOf_ne_nil 16 _)
  obtain ⟨w, hw⟩ : ∃ w : Nat, (w : Int) = max 1 padding := ⟨(max 1 padding).toNat, by omega⟩
  have ho' : out = (fixDigits 16 (max w (nd 16 i.toNat)) i.toNat).map (digitChar caps) := by
    have := @fixDigits_padTo 16 i.toNat (by omega) caps (w : Int) (Or.inr (by omega))
    simp only [Int.toNat_natCast] at this
    rw [this, ho]
    unfold padTo
    congr 2
    simp only [List.length_map, Int.toNat_natCast]
    omega
  have hlen : out.length = max w (nd 16 i.toNat) := by rw [ho']; simp
  have hconst : (if capitals > 0 then 55 else 87) = (if caps then 55 else 87 : Nat) := by
    rw [hc]; simp
  have := @itohexLoop_skip i caps buf 8 w (by omega) (by omega) (by omega) m 0
    (Nat.mod_eq_of_lt (by have := i.isLt; norm_num; omega))
    (hm.mono (by omega))
  rw [hexPos_eight, ← ho'] at this
  unfold itohex_
  rw [ckInt_ok (by omega) (by omega), hconst]
  simp only [Res.ok_bind]
  rw [show (if padding - 8 < -7 then -7 else padding - 8) = (w : Int) - (8 : Nat) by split <;> omega, this]
  simp only [Res.ok_bind, Nat.add_zero, Nat.zero_add]
  obtain ⟨c, hc⟩ := (hm.write buf out) out.length (by omega)
  rw [hlen] at hc
  rw [store_some hc, ← hlen]
  simp [write_append, write_singleton]

/-! ### itobin -/

theorem top_bit (i : BitVec 32) : (i &&& 0x80000000#32 ≠ 0#32) ↔ 2147483648 ≤ i.toNat := by
  have h1 : i &&& 0x80000000#32 = if i.msb then 0x80000000#32 else 0#32 := by
    apply BitVec.eq_of_getLsbD_eq
    intro j hj
    rw [BitVec.getLsbD_and]
    have : (0x80000000#32 : BitVec 32).getLsbD j = decide (j = 31) := by
      interval_cases j <;> decide
    rw [this]
    by_cases hj31 : j = 31
    · subst hj31
      rw [BitVec.msb_eq_getLsbD_last]
      cases h : i.getLsbD 31 <;> simp [h]
    · simp only [hj31, decide_false, Bool.and_false]
      split
      · rw [this]; simp [hj31]
      · simp
  rw [h1]
  have h2 := @BitVec.msb_eq_decide 32 i
  rw [h2]
  by_cases h : 2147483648 ≤ i.toNat
  · have : decide (2 ^ (32 - 1) ≤ i.toNat) = true := by norm_num; exact h
    rw [this]; simp [h]
  · have : decide (2 ^ (32 - 1) ≤ i.toNat) = false := by norm_num; omega
    rw [this]; simp [h]

theorem shl_toNat (i : BitVec 32) : (i <<< 1).toNat = 2 * i.toNat % 4294967296 := by
  rw [BitVec.toNat_shiftLeft, Nat.shiftLeft_eq]; omega

/-- The state of the shifted number when `k + 1` bits with value `v` are left. -/
theorem bin_step {i : BitVec 32} {k v : Nat} (hk : k < 32) (hv : v < 2 ^ (k + 1))
    (hi : i.toNat = v * 2 ^ (32 - (k + 1))) :
    ((i &&& 0x80000000#32 ≠ 0#32) ↔ 2 ^ k ≤ v) ∧ (i <<< 1).toNat = v % 2 ^ k * 2 ^ (32 - k) := by
  have e : 2 ^ (32 - k) = 2 * 2 ^ (32 - (k + 1)) := by
    rw [show 32 - k = (32 - (k + 1)) + 1 by omega, Nat.pow_succ]; omega
  have hpow : 2 ^ k * 2 ^ (32 - (k + 1)) = 2147483648 := by
    rw [← Nat.pow_add, show k + (32 - (k + 1)) = 31 by omega]
  have hP : 0 < 2 ^ (32 - (k + 1)) := Nat.pow_pos (by omega)
  constructor
  · rw [top_bit, hi, ← hpow]
    constructor
    · intro h; exact Nat.le_of_mul_le_mul_right h hP
    · intro h; exact Nat.mul_le_mul_right _ h
  · rw [shl_toNat, hi, e, show (4294967296 : Nat) = 2 ^ k * (2 * 2 ^ (32 - (k + 1))) by
      rw [show 2 ^ k * (2 * 2 ^ (32 - (k + 1))) = 2 * (2 ^ k * 2 ^ (32 - (k + 1))) by ring, hpow],
      show 2 * (v * 2 ^ (32 - (k + 1))) = v * (2 * 2 ^ (32 - (k + 1))) by ring,
      Nat.mul_mod_mul_right]

/-- The blank written after the last bit. -/
def binTail (groups : Int) : List Byte := if groups = 32 then [32#8] else []

/-- What follows one written bit. -/
theorem itobinLoop_bit {groups : Int} (hg : 32 ≤ groups) {buf k : Nat} (hk : k < 32) {m m' : Mem}
    {i : BitVec 32} {p p' : Nat} {prec prec' : Int} {v : Nat}
    (hrest : ∀ {m : Mem} {i : BitVec 32} {p : Nat}, 0 < k → i.toNat = v % 2 ^ k * 2 ^ (32 - k) →
      m.Mapped (buf + p) (k + (binTail groups).length) →
      itobinLoop groups buf k m i p 0 ((32 - k : Nat) : Int)
        = .ok (m.write (buf + p) ((fixDigits 2 k v).map (digitChar false) ++ binTail groups),
            p + (k + (binTail groups).length)))
    (hb : itobinBit m i buf p prec = .ok (m', p', prec')) (hp : prec' = 0)
    (hi : (i <<< 1).toNat = v % 2 ^ k * 2 ^ (32 - k))
    (hm : m'.Mapped (buf + p') (k + (binTail groups).length)) :
    itobinLoop groups buf (k + 1) m i p prec ((32 - (k + 1) : Nat) : Int)
      = .ok (m'.write (buf + p') ((fixDigits 2 k v).map (digitChar false) ++ binTail groups),
          p' + (k + (binTail groups).length)) := by
  subst hp
  rw [itobinLoop, hb]
  simp only [Res.ok_bind, true_and]
  rcases Nat.eq_zero_or_pos k with h0 | h0
  · subst h0
    simp only [fixDigits, List.map_nil, List.nil_append, Nat.zero_add] at hm ⊢
    by_cases h32 : groups = 32
    · subst h32
      simp only [binTail, if_true, List.length_singleton] at hm ⊢
      obtain ⟨hs, _⟩ := store_step hm 32#8
      rw [if_pos (by omega), hs]
      simp [itobinLoop, write_singleton]
    · rw [if_neg (by omega)]
      simp [itobinLoop, binTail, h32]
  · rw [if_neg (by omega), show ((32 - (k + 1) : Nat) : Int) + 1 = ((32 - k : Nat) : Int) by omega]
    exact hrest h0 hi hm

theorem itobinLoop_all {groups : Int} (hg : 32 ≤ groups) {buf k : Nat} (hk : k ≤ 32) :
    ∀ {m : Mem} {i : BitVec 32} {p v : Nat}, 0 < k → v < 2 ^ k → i.toNat = v * 2 ^ (32 - k) →
      m.Mapped (buf + p) (k + (binTail groups).length) →
      itobinLoop groups buf k m i p 0 ((32 - k : Nat) : Int)
        = .ok (m.write (buf + p) ((fixDigits 2 k v).map (digitChar false) ++ binTail groups),
            p + (k + (binTail groups).length)) := by
  induction k with
  | zero => intro m i p v h; omega
  | succ k ih =>
    intro m i p v _ hv hi hm
    obtain ⟨hbit, hnext⟩ := bin_step (by omega) hv hi
    have hq : v / 2 ^ k < 2 := by
      rw [Nat.div_lt_iff_lt_mul (Nat.pow_pos (by omega))]; rw [Nat.pow_succ] at hv; omega
    have hmod := @fixDigits_mod 2 k v k (le_refl _)
    obtain ⟨hs, hm'⟩ := store_step (n := k + (binTail groups).length)
      (by rw [show k + (binTail groups).length + 1 = k + 1 + (binTail groups).length by omega]; exact hm)
      (digitChar false (v / 2 ^ k))
    have hb : itobinBit m i buf p 0
        = .ok (m.upd (buf + p) (digitChar false (v / 2 ^ k)), p + 1, 0) := by
      unfold itobinBit
      by_cases h : 2 ^ k ≤ v
      · rw [if_pos (hbit.2 h)]
        have : v / 2 ^ k = 1 := by
          have : 1 ≤ v / 2 ^ k := by rw [Nat.le_div_iff_mul_le (Nat.pow_pos (by omega))]; omega
          omega
        rw [this] at hs ⊢
        rw [show (49#8 : Byte) = digitChar false 1 from rfl, hs]; rfl
      · rw [if_neg (fun h' => h (hbit.1 h')), if_pos rfl]
        have : v / 2 ^ k = 0 := Nat.div_eq_of_lt (by omega)
        rw [this] at hs ⊢
        rw [show (48#8 : Byte) = digitChar false 0 from rfl, hs]; rfl
    have := itobinLoop_bit hg (by omega) (v := v) (k := k) (buf := buf)
      (fun {m i p} h0 hi hm => by
        have := @ih (by omega) m i p (v % 2 ^ k) h0 (Nat.mod_lt _ (Nat.pow_pos (by omega))) hi hm
        rwa [hmod] at this) hb rfl hnext hm'
    rw [this, fixDigits, Nat.mod_eq_of_lt hq, List.map_cons, List.cons_append, write_cons]
    rw [show buf + (p + 1) = buf + p + 1 by omega]
    simp; omega

theorem itobinLoop_skip {groups : Int} (hg : 32 ≤ groups) {buf k : Nat} (hk : k ≤ 32) {w : Int}
    (hw : w ≤ k) (hmin : INT_MIN + 32 ≤ w) :
    ∀ {m : Mem} {i : BitVec 32} {p v : Nat}, v < 2 ^ k → i.toNat = v * 2 ^ (32 - k) →
      (v ≠ 0 ∨ 1 ≤ w) →
      m.Mapped (buf + p) (max w.toNat (nd 2 v) + (binTail groups).length) →
      itobinLoop groups buf k m i p (w - k) ((32 - k : Nat) : Int)
        = .ok (m.write (buf + p) ((fixDigits 2 (max w.toNat (nd 2 v)) v).map (digitChar false)
              ++ binTail groups),
            p + (max w.toNat (nd 2 v) + (binTail groups).length)) := by
  induction k with
  | zero =>
    intro m i p v hv _ h
    have : v = 0 := by simpa using hv
    omega
  | succ k ih =>
    intro m i p v hv hi h0 hm
    rcases Int.lt_or_eq_of_le hw with hw1 | hw1
    · obtain ⟨hbit, hnext⟩ := bin_step (by omega) hv hi
      by_cases h : 2 ^ k ≤ v
      · have hW : max w.toNat (nd 2 v) = k + 1 := by
          have := nd_big (by omega) h hv; omega
        rw [hW] at hm ⊢
        have h1 : v / 2 ^ k = 1 := by
          have : 1 ≤ v / 2 ^ k := by rw [Nat.le_div_iff_mul_le (Nat.pow_pos (by omega))]; omega
          have : v / 2 ^ k < 2 := by
            rw [Nat.div_lt_iff_lt_mul (Nat.pow_pos (by omega))]; rw [Nat.pow_succ] at hv; omega
          omega
        obtain ⟨hs, hm'⟩ := store_step (n := k + (binTail groups).length)
          (by rw [show k + (binTail groups).length + 1 = k + 1 + (binTail groups).length by omega]
              exact hm) 49#8
        have hb : itobinBit m i buf p (w - (k + 1 : Nat)) = .ok (m.upd (buf + p) 49#8, p + 1, 0) := by
          unfold itobinBit
          rw [if_pos (hbit.2 h), hs]; rfl
        have hmod := @fixDigits_mod 2 k v k (le_refl _)
        have := itobinLoop_bit hg (by omega) (v := v) (k := k) (buf := buf)
          (fun {m i p} h0 hi hm => by
            have := @itobinLoop_all groups hg buf k (by omega) m i p (v % 2 ^ k) h0
              (Nat.mod_lt _ (Nat.pow_pos (by omega))) hi hm
            rwa [hmod] at this) hb rfl hnext hm'
        rw [this, fixDigits, h1, List.map_cons, List.cons_append, write_cons]
        rw [show buf + (p + 1) = buf + p + 1 by omega]
        simp [digitChar]; omega
      · have hb : itobinBit m i buf p (w - (k + 1 : Nat)) = .ok (m, p, w - k) := by
          unfold itobinBit
          rw [if_neg (fun h' => h (hbit.1 h')), if_neg (by omega), ckInt_ok (by omega) (by omega)]
          simp only [Res.ok_bind, Res.pure_eq]
          rw [show w - ((k + 1 : Nat) : Int) + 1 = w - k by omega]
        have hv' : v % 2 ^ k = v := Nat.mod_eq_of_lt (by omega)
        rw [hv'] at hnext
        rcases Nat.eq_zero_or_pos k with hk0 | hk0
        · subst hk0
          simp at h hw1
          have : v = 0 := by omega
          omega
        · rw [itobinLoop, hb]
          simp only [Res.ok_bind]
          rw [if_neg (by omega),
            show ((32 - (k + 1) : Nat) : Int) + 1 = ((32 - k : Nat) : Int) by omega]
          exact ih (by omega) (by omega) (by omega) hnext h0 hm
    · have hW : max w.toNat (nd 2 v) = k + 1 := by
        have := @nd_le 2 (k + 1) v (by omega) hv; omega
      rw [hW] at hm ⊢
      rw [show w - ((k + 1 : Nat) : Int) = 0 by omega]
      exact itobinLoop_all hg hk (by omega) hv hi hm

/-! ### itooct -/

theorem itooctDigits_eq {tmp : Nat → Byte} {i p : Nat} (h : p + nd 8 i ≤ 16) :
    ∃ t, itooctDigits tmp i p = .ok (t, p + nd 8 i) ∧ (∀ j, j < p ∨ p + nd 8 i ≤ j → t j = tmp j) ∧
      ∀ j, j < nd 8 i → t (p + j) = digitChar false (i / 8 ^ j % 8) := by
  induction i using Nat.strongRecOn generalizing tmp p with
  | _ i ih =>
    by_cases h0 : i = 0
    · subst h0
      refine ⟨tmp, ?_, fun j _ => rfl, fun j hj => ?_⟩
      · rw [itooctDigits, if_neg (by simp)]; simp [nd]
      · simp [nd] at hj
    · have hstep : nd 8 i = nd 8 (i / 8) + 1 := by
        rw [nd_eq h0, digitsOf]
        split
        · rw [show i / 8 = 0 by omega]; simp [nd]
        · rw [nd_eq (by omega)]; simp
      obtain ⟨t, e, h1, h2⟩ := @ih (i / 8) (by omega)
        (fun j => if j = p then BitVec.ofNat 8 (i % 8 + 48) else tmp j) (p + 1) (by omega)
      refine ⟨t, ?_, ?_, ?_⟩
      · rw [itooctDigits, if_pos h0, if_pos (by omega), e, hstep]
        simp; omega
      · intro j hj
        rw [h1 j (by omega), if_neg (by omega)]
      · intro j hj
        rcases Nat.eq_zero_or_pos j with hj0 | hj0
        · subst hj0
          rw [h1 _ (by omega), if_pos (by omega)]
          rw [digitChar_lt (by omega)]
          simp; congr 1; omega
        · have := h2 (j - 1) (by omega)
          rw [show p + 1 + (j - 1) = p + j by omega] at this
          rw [this, Nat.div_div_eq_div_mul, ← Nat.pow_succ', show (j - 1).succ = j by omega]

theorem itooctCopy_eq {t : Nat → Byte} (n : Nat) : ∀ {m : Mem} {buf : Nat}, m.Mapped buf n →
    itooctCopy t m buf n = .ok (m.write buf ((List.range n).reverse.map t), buf + n) := by
  induction n with
  | zero => intro m buf _; simp [itooctCopy]
  | succ n ih =>
    intro m buf hm
    obtain ⟨hs, hm'⟩ := store_step hm (t n)
    rw [itooctCopy, hs]
    simp only [Res.ok_bind]
    rw [ih hm', List.range_succ]
    simp [write_cons]; omega

theorem fixDigits_range (b k n : Nat) :
    fixDigits b k n = (List.range k).reverse.map (fun j => n / b ^ j % b) := by
  induction k with
  | zero => rfl
  | succ k ih => rw [fixDigits, ih, List.range_succ]; simp

/-- `itooct` of a positive number, after the sign: one uninitialised byte, then the digits. -/
theorem itooct_tail {tmp : Nat → Byte} {m : Mem} {i buf : Nat} (hi : i < 2147483648)
    (hm : m.Mapped buf (1 + nd 8 i)) :
    ∃ t, itooctDigits tmp i 0 = .ok (t, nd 8 i) ∧
      itooctCopy t m buf (nd 8 i + 1)
        = .ok (m.write buf (tmp (nd 8 i) :: dtxt (digits0 8 i)), buf + (nd 8 i + 1)) := by
  have hnd : nd 8 i ≤ 11 := nd_le (by omega) (by norm_num; omega)
  obtain ⟨t, e, h1, h2⟩ := @itooctDigits_eq tmp i 0 (by omega)
  rw [Nat.zero_add] at e
  refine ⟨t, e, ?_⟩
  rw [itooctCopy_eq _ (by rw [Nat.add_comm]; exact hm), List.range_succ]
  simp only [List.reverse_append, List.reverse_singleton, List.singleton_append, List.map_cons]
  rw [h1 _ (by omega)]
  have hd : digits0 8 i = fixDigits 8 (nd 8 i) i := by
    rw [fixDigits_pad (by omega) (lt_pow_nd (by omega))]; simp
  rw [hd, fixDigits_range, dtxt, List.map_map]
  congr 4
  apply List.map_congr_left
  intro j hj
  simp at hj
  have := h2 j hj
  rw [Nat.zero_add] at this
  rw [this]; rfl

end Minilib

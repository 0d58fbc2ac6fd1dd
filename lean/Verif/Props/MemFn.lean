import Verif.Lemmas.MemFn
/-
Properties C14 - C16: memcpy, memset, memmove, memcmp, memchr.
-/

set_option autoImplicit false

namespace Minilib
open Mem Spec

/-- Memory of the examples: 8 bytes at 100, 8 bytes at 200. -/
def exBuf : Mem := objects [(100, [1, 2, 3, 4, 5, 6, 7, 8, 9, 10, 11, 12]),
  (200, [0, 0, 0, 0, 0, 0, 0, 0, 0, 0, 0, 0])]

/-! ### C14 -/

/-- C14: `memcpy` (byte loop) on disjoint ranges. -/
theorem C14_memcpy {m : Mem} {d s : Nat} {l : List Byte} (h : m.Holds s l)
    (hd : m.Mapped d l.length) (ho : Disjoint d l.length s l.length) :
    memcpy m d s l.length = .ok (m.write d l, d) := by
  have := memcpyLoop_eq (a := 0) (k := 0) h hd ho (by omega) (by omega)
  rw [List.take_zero, write_nil] at this
  simp [memcpy, this]

/-- C14: the word-wise build variant of `memcpy` has the same effect. -/
theorem C14_memcpy_optimized {m : Mem} {d s : Nat} {l : List Byte} (h : m.Holds s l)
    (hd : m.Mapped d l.length) (ho : Disjoint d l.length s l.length) :
    memcpyOpt m d s l.length = .ok (m.write d l, d) := by
  unfold memcpyOpt
  by_cases hz : (l.length : Int) = 0
  · have : l = [] := List.eq_nil_of_length_eq_zero (by omega)
    subst this; simp
  · rw [if_neg hz]
    obtain ⟨k1, a1, a2, a3, a4⟩ := memcpyWide_eq (a := 0) (k := 0) (w := 8) (e := l.length / 8) h hd ho
      (by omega) (by omega) (by omega) (by omega)
    rw [List.take_zero, write_nil] at a4
    rw [show ((l.length : Int) / 8) = ((l.length / 8 : Nat) : Int) by omega, a4, Res.ok_bind]
    simp only
    rw [if_neg (by omega)]
    obtain ⟨k2, b1, b2, b3, b4⟩ := memcpyWide_eq (a := max 0 (l.length / 8)) (k := k1) (w := 4)
      (e := l.length / 4) h hd ho (by omega) a3 (by omega) (by omega)
    rw [show ((l.length : Int) / 4) = ((l.length / 4 : Nat) : Int) by omega, b4, Res.ok_bind]
    simp only
    rw [if_neg (by omega), memcpyLoop_eq h hd ho (by omega) b3]
    rfl

example : memcpy exBuf 200 100 12 =
    .ok (exBuf.write 200 [1, 2, 3, 4, 5, 6, 7, 8, 9, 10, 11, 12], 200) :=
  C14_memcpy (l := [1, 2, 3, 4, 5, 6, 7, 8, 9, 10, 11, 12]) (by decide) (by decide)
    (by intro a; simp; omega)

example : memcpyOpt exBuf 200 100 12 =
    .ok (exBuf.write 200 [1, 2, 3, 4, 5, 6, 7, 8, 9, 10, 11, 12], 200) :=
  C14_memcpy_optimized (l := [1, 2, 3, 4, 5, 6, 7, 8, 9, 10, 11, 12]) (by decide) (by decide)
    (by intro a; simp; omega)

/-- C14: `memset` stores `n` copies of the low byte of `c` and nothing else. -/
theorem C14_memset {m : Mem} {s n : Nat} (c : Int) (hd : m.Mapped s n) :
    memset m s c n = .ok (m.write s (List.replicate n (BitVec.ofInt 8 c)), s) := by
  have := @memsetLoop_eq m s 0 n (BitVec.ofInt 8 c) (by simpa using hd)
  rw [Nat.zero_add, Nat.add_zero] at this
  simp [memset, this]

/-- C14: with a length that is not positive nothing happens. -/
theorem C14_nonpositive (m : Mem) (d s : Nat) (c n : Int) (h : n ≤ 0) :
    memset m s c n = .ok (m, s) ∧ memcpy m d s n = .ok (m, d) := by
  constructor
  · rw [memset, memsetLoop, if_neg (by simpa using h)]; rfl
  · rw [memcpy, memcpyLoop, if_neg (by simpa using h)]; rfl

example : memset exBuf 203 (-1) 3 = .ok (exBuf.write 203 [255, 255, 255], 203) :=
  C14_memset (n := 3) (-1) (by decide)

/-! ### C15 -/

/-- C15, full statement. -/
def C15_memmove_full : Prop :=
  ∀ (m : Mem) (d s : Nat) (l : List Byte), m.Holds s l → m.Mapped d l.length →
    memmove m d s l.length = .ok (m.write d l, d)

/-- C15 fails: moving up by one byte smears the first byte over the range. -/
theorem C15_memmove_refuted : ¬ C15_memmove_full := by
  intro h
  have h1 := h exBuf 101 100 [1, 2, 3] (by decide) (by decide)
  have e : memmove exBuf 101 100 (([1, 2, 3] : List Byte).length : Int) =
      .ok (((exBuf.upd 101 1).upd 102 1).upd 103 1, 101) := by
    simp only [memmove, List.length_cons, List.length_nil, memmoveLoop,
      show ((0 + 1 + 1 + 1 : Nat) : Int).toNat = 3 by rfl]
    rw [load_some (b := 1) (by decide), Res.ok_bind, store_some (c := 2) (by decide), Res.ok_bind,
      load_some (b := 1) (by decide), Res.ok_bind, store_some (c := 3) (by decide), Res.ok_bind,
      load_some (b := 1) (by decide), Res.ok_bind, store_some (c := 4) (by decide), Res.ok_bind]
    rfl
  rw [e] at h1
  injection h1 with h1
  have := congrFun (congrArg Prod.fst h1) 102
  revert this
  decide

/-- C15 (partial: the destination starts at or below the source, or behind it): the copy is right,
also for overlapping ranges. -/
theorem C15_memmove_partial {m : Mem} {d s : Nat} {l : List Byte} (h : m.Holds s l)
    (hd : m.Mapped d l.length) (ho : d ≤ s ∨ s + l.length ≤ d) :
    memmove m d s l.length = .ok (m.write d l, d) := by
  simp [memmove, memmoveLoop_eq h hd ho]

/-- Overlapping move down by two. -/
example : memmove exBuf 100 102 4 = .ok (exBuf.write 100 [3, 4, 5, 6], 100) :=
  C15_memmove_partial (l := [3, 4, 5, 6]) (by decide) (by decide) (by simp)

/-! ### C16 -/

/-- C16, full statement for `memchr`: `c` is converted to `unsigned char`. -/
def C16_memchr_full : Prop :=
  ∀ (m : Mem) (s n : Nat) (c : Int) (l : List Byte), m.Holds s l → l.length = n →
    (∃ pre post, l = pre ++ BitVec.ofInt 8 c :: post ∧ BitVec.ofInt 8 c ∉ pre ∧
      memchr m s c n = .ok (s + pre.length)) ∨
    (BitVec.ofInt 8 c ∉ l ∧ memchr m s c n = .ok 0)

/-- C16 fails: `memchr(s, (char)0xff, n)` passes -1, which no byte equals. -/
theorem C16_memchr_refuted : ¬ C16_memchr_full := by
  intro h
  have e : memchr (object 10 [255]) 10 (-1) 1 = .ok 0 :=
    memchrLoop_miss (l := [255]) (by decide) (by decide)
  rcases h (object 10 [255]) 10 1 (-1) [255] (by decide) rfl with ⟨pre, post, _, _, h3⟩ | ⟨h1, _⟩
  · rw [e] at h3; injection h3; omega
  · exact absurd h1 (by decide)

/-- C16: `memchr` with `c` in 0..255 returns the first occurrence and reads nothing behind it. -/
theorem C16_memchr_found_partial {m : Mem} {s n : Nat} {pre : List Byte} {c : Byte}
    (h : m.Holds s (pre ++ [c])) (hl : pre.length < n) (hc : c ∉ pre) :
    memchr m s c.toNat n = .ok (s + pre.length) :=
  memchrLoop_hit h (by omega) hc

/-- C16: `memchr` returns NULL when the byte does not occur in the range. -/
theorem C16_memchr_absent_partial {m : Mem} {s : Nat} {l : List Byte} {c : Byte} (h : m.Holds s l)
    (hc : c ∉ l) : memchr m s c.toNat l.length = .ok 0 :=
  memchrLoop_miss h (fun b hb e => hc (by
    have : b = c := by rw [← BitVec.toNat_inj]; omega
    rwa [← this]))

/-- The 3 is found at 102 although only 3 of the 100 bytes claimed are mapped. -/
example : memchr (object 100 [1, 2, 3]) 100 3 100 = .ok 102 :=
  C16_memchr_found_partial (pre := [1, 2]) (c := 3) (by decide) (by decide) (by decide)

example : memchr exBuf 100 77 12 = .ok 0 :=
  C16_memchr_absent_partial (l := [1, 2, 3, 4, 5, 6, 7, 8, 9, 10, 11, 12]) (c := 77) (by decide)
    (by decide)

/-- C16, full statement for `memcmp`. -/
def C16_memcmp_full : Prop :=
  ∀ (m : Mem) (p q : Nat) (a b : List Byte), m.Holds p a → m.Holds q b → a.length = b.length →
    ∃ r, memcmp m p q a.length = .ok r ∧ (r = 0 ↔ a = b) ∧ (r < 0 ↔ a < b)

/-- C16 fails: `memcmp(p,q,0)` is -1. -/
theorem C16_memcmp_refuted : ¬ C16_memcmp_full := by
  intro h
  obtain ⟨r, h1, h2, _⟩ := h exBuf 100 100 [] [] (by decide) (by decide) rfl
  have : memcmp exBuf 100 100 (([] : List Byte).length : Int) = .ok (-1) := rfl
  rw [this] at h1
  injection h1 with h1
  subst h1
  exact absurd (h2.2 rfl) (by decide)

/-- C16 fails also for positive lengths: 0x80 sorts before 0x01, because the bytes are compared as
signed `char`. -/
theorem C16_memcmp_refuted_sign : ∃ (m : Mem) (p q : Nat) (a b : List Byte), m.Holds p a ∧
    m.Holds q b ∧ a.length = b.length ∧ a ≠ [] ∧ b < a ∧ memcmp m p q a.length = .ok (-1) := by
  refine ⟨objects [(10, [0x80]), (20, [0x01])], 10, 20, [0x80], [0x01], by decide, by decide, rfl,
    by decide, by decide, ?_⟩
  rw [memcmp, if_neg (by decide), memcmpLoop, if_neg (by decide)]
  decide

/-- C16 (partial: at least one byte): exact result of `memcmp`: the order of the first differing
pair compared as signed `char`, and 0 for equal ranges. -/
theorem C16_memcmp_partial {m : Mem} {p q : Nat} {a b : List Byte} (hp : m.Holds p a)
    (hq : m.Holds q b) (hl : a.length = b.length) (hne : a ≠ []) :
    ∃ r, memcmp m p q a.length = .ok r ∧ (r = 0 ↔ a = b) ∧
      ∀ c x y a' b', a = c ++ x :: a' → b = c ++ y :: b' → x ≠ y →
        (r < 0 ↔ x.toInt < y.toInt) ∧ (0 < r ↔ y.toInt < x.toInt) := by
  obtain ⟨c, x, y, a', b', e1, e2, e3⟩ := split_diff a b hl hne
  have hlen : a.length = c.length + a'.length + 1 := by rw [e1]; simp; omega
  have hp' := holds_prefix (by rw [← e1]; exact hp)
  have hq' := holds_prefix (by rw [← e2]; exact hq)
  have hloop : memcmpLoop m p q ((a.length : Int) - 1) 0 = .ok c.length := by
    have := @memcmpLoop_diff m p q 0 (a.length - 1) c x y hp' hq' (by omega) (by
      rcases e3 with h | ⟨_, h, _⟩
      · exact Or.inl h
      · right; subst h; simp at hlen; omega)
    rw [Nat.zero_add] at this
    rwa [show ((a.length - 1 : Nat) : Int) = (a.length : Int) - 1 by omega] at this
  have hx : m (p + c.length) = some x := by
    have := hp' c.length (by simp); simpa using this
  have hy : m (q + c.length) = some y := by
    have := hq' c.length (by simp); simpa using this
  refine ⟨if x.toInt > y.toInt then 1 else if x.toInt < y.toInt then -1 else 0, ?_, ?_, ?_⟩
  · unfold memcmp
    rw [if_neg (by omega), hloop, Res.ok_bind, load_some hx, Res.ok_bind, load_some hy, Res.ok_bind]
    split
    · rfl
    · split <;> rfl
  · constructor
    · intro h
      have hxy : x = y := by
        rw [← BitVec.toInt_inj]
        split at h
        · simp at h
        · split at h
          · simp at h
          · omega
      rcases e3 with h' | ⟨_, h1, h2⟩
      · exact absurd hxy h'
      · rw [e1, e2, h1, h2, hxy]
    · intro h
      have : x = y := by
        have h2 : c ++ x :: a' = c ++ y :: b' := by rw [← e1, ← e2, h]
        simpa using (List.append_cancel_left h2 |> List.cons.inj).1
      subst this; simp
  · intro c2 x2 y2 a2 b2 f1 f2 hne2
    have : c2 = c ∧ x2 = x ∧ y2 = y := by
      have key : ∀ (c c2 : List Byte) (x y x2 y2 : Byte) (a' b' a2 b2 : List Byte),
          c ++ x :: a' = c2 ++ x2 :: a2 → c ++ y :: b' = c2 ++ y2 :: b2 → x2 ≠ y2 →
          (x ≠ y ∨ (x = y ∧ a' = [] ∧ b' = [])) → c2 = c ∧ x2 = x ∧ y2 = y := by
        intro c
        induction c with
        | nil =>
          intro c2 x y x2 y2 a' b' a2 b2 g1 g2 g3 g4
          cases c2 with
          | nil => simp at g1 g2; exact ⟨rfl, g1.1.symm, g2.1.symm⟩
          | cons z c2 =>
            simp at g1 g2
            rcases g4 with g4 | ⟨_, g5, g6⟩
            · exact absurd (g1.1.trans g2.1.symm) g4
            · rw [g5] at g1; simp at g1
        | cons z c ih =>
          intro c2 x y x2 y2 a' b' a2 b2 g1 g2 g3 g4
          cases c2 with
          | nil => simp at g1 g2; exact absurd (g1.1.symm.trans g2.1) g3
          | cons w c2 =>
            simp at g1 g2
            obtain ⟨i1, i2, i3⟩ := ih c2 x y x2 y2 a' b' a2 b2 g1.2 g2.2 g3 g4
            exact ⟨by rw [g1.1, i1], i2, i3⟩
      exact key c c2 x y x2 y2 a' b' a2 b2 (by rw [← e1, ← f1]) (by rw [← e2, ← f2]) hne2 e3
    obtain ⟨_, rfl, rfl⟩ := this
    constructor
    · constructor
      · intro h
        split at h
        · simp at h
        · split at h
          · assumption
          · simp at h
      · intro h; rw [if_neg (by omega), if_pos h]; decide
    · constructor
      · intro h
        split at h
        · omega
        · split at h <;> simp at h
      · intro h; rw [if_pos h]; decide

example : ∃ r, memcmp (objects [(10, [1, 2, 3]), (20, [1, 2, 4])]) 10 20 3 = .ok r ∧ r < 0 := by
  obtain ⟨r, h1, _, h2⟩ := C16_memcmp_partial (m := objects [(10, [1, 2, 3]), (20, [1, 2, 4])])
    (p := 10) (q := 20) (a := [1, 2, 3]) (b := [1, 2, 4]) (by decide) (by decide) rfl (by decide)
  exact ⟨r, h1, (h2 [1, 2] 3 4 [] [] rfl rfl (by decide)).1.2 (by decide)⟩

end Minilib

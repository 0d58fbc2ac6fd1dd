import Verif.Lemmas.Str
import Verif.Lemmas.StrCmp
/-
Properties C01 - C12: string functions.

Every result `f m … = .ok (…)` says: the call terminates, touches only mapped memory, and has
exactly the stated effect.  Since the hypotheses mention only the string and the destination, every
other address may be unmapped: nothing else is read.
-/

set_option autoImplicit false

namespace Minilib
open Mem Spec

/-- Concrete memory used by the examples: "abc" at 100, "ab" at 200, "hello, world" at 300,
16 writable bytes at 400, and ", " at 500. -/
def exMem : Mem := objects [(100, [97, 98, 99, 0]), (200, [97, 98, 0]),
  (300, [104, 101, 108, 108, 111, 44, 32, 119, 111, 114, 108, 100, 0]),
  (400, [1, 2, 3, 4, 5, 6, 7, 8, 9, 10, 11, 12, 13, 14, 15, 16]), (500, [44, 32, 0])]

/-! ### C01 -/

/-- C01: `strlen` returns the number of bytes before the first NUL. -/
theorem C01_strlen {m : Mem} {p : Nat} {s : List Byte} (h : m.IsStr p s) (hp : p ≠ 0)
    (hl : s.length < 2147483648) : strlen m p = .ok s.length := by
  unfold strlen
  rw [if_neg hp, strlenLoop_eq (by simpa using h) (by omega)]
  simp

example : strlen exMem 300 = .ok 12 :=
  C01_strlen (s := [104, 101, 108, 108, 111, 44, 32, 119, 111, 114, 108, 100]) (by decide)
    (by decide) (by decide)

/-- C01: `strlen(NULL)` is 0. -/
theorem C01_strlen_null (m : Mem) : strlen m 0 = .ok 0 := rfl

/-- C01: `strnlen` returns the length of the text seen through the first `n` bytes; only these are
read. -/
theorem C01_strnlen {m : Mem} {p n : Nat} {s : List Byte} (h : StrN m p n s) (hp : p ≠ 0)
    (hn : 1 ≤ n) (hl : n < 2147483648) : strnlen m p n = .ok s.length := by
  unfold strnlen
  rw [if_neg hp]
  have := @strnlenLoop_eq m p 0 n s (by simpa using h) hn (by omega)
  simpa using this

/-- C01: on a terminated string `strnlen` is `min (strlen s) max`. -/
theorem C01_strnlen_min {m : Mem} {p n : Nat} {s : List Byte} (h : m.IsStr p s) (hp : p ≠ 0)
    (hn : 1 ≤ n) (hl : n < 2147483648) : strnlen m p n = .ok (min s.length n : Nat) := by
  rw [C01_strnlen (IsStr_strN h n) hp hn hl]; simp [Nat.min_comm]

/-- 16 bytes without terminator: only the first 16 are read. -/
example : strnlen exMem 400 16 = .ok 16 :=
  C01_strnlen (n := 16) (s := [1, 2, 3, 4, 5, 6, 7, 8, 9, 10, 11, 12, 13, 14, 15, 16]) (by decide)
    (by decide) (by decide) (by decide)

example : strnlen exMem 300 5 = .ok 5 :=
  C01_strnlen_min (n := 5) (s := [104, 101, 108, 108, 111, 44, 32, 119, 111, 114, 108, 100])
    (by decide) (by decide) (by decide) (by decide)

/-! ### C02 -/

/-- C02: `strcpy`. -/
theorem C02_strcpy {m : Mem} {dest src : Nat} {s : List Byte} (h : m.IsStr src s)
    (hd : m.Mapped dest (s.length + 1)) (hdis : Disjoint dest (s.length + 1) src (s.length + 1)) :
    strcpy m dest src = .ok (m.write dest (s ++ [0#8]), dest) := by
  simp [strcpy, stpcpyLoop_eq h hd hdis]

/-- C02: `stpcpy`. -/
theorem C02_stpcpy {m : Mem} {dest src : Nat} {s : List Byte} (h : m.IsStr src s)
    (hd : m.Mapped dest (s.length + 1)) (hdis : Disjoint dest (s.length + 1) src (s.length + 1)) :
    stpcpy m dest src = .ok (m.write dest (s ++ [0#8]), dest + s.length) := by
  simp [stpcpy, stpcpyLoop_eq h hd hdis]

/-- What `m.write` means: the written bytes are there, everything else is unchanged, and the result
is the copied string. -/
theorem C02_copy_meaning {m : Mem} {dest src : Nat} {s : List Byte} (h : m.IsStr src s) :
    (m.write dest (s ++ [0#8])).IsStr dest s ∧
    ∀ a, a < dest ∨ dest + s.length < a → m.write dest (s ++ [0#8]) a = m a := by
  refine ⟨isStr_iff.2 ⟨write_holds _ _ _, h.2.2⟩, fun a ha => write_outside _ _ _ _ ?_⟩
  simp; omega

example : strcpy exMem 400 100 = .ok (exMem.write 400 [97, 98, 99, 0], 400) :=
  C02_strcpy (s := [97, 98, 99]) (by decide) (by decide) (by intro a; simp; omega)

example : stpcpy exMem 400 100 = .ok (exMem.write 400 [97, 98, 99, 0], 403) :=
  C02_stpcpy (s := [97, 98, 99]) (by decide) (by decide) (by intro a; simp; omega)

/-! ### C03 -/

/-- C03: `strcat`. -/
theorem C03_strcat {m : Mem} {dest src : Nat} {s t : List Byte} (hs : m.IsStr dest s)
    (ht : m.IsStr src t) (hp : dest ≠ 0) (hl : s.length < 2147483648)
    (hd : m.Mapped (dest + s.length) (t.length + 1))
    (hdis : Disjoint (dest + s.length) (t.length + 1) src (t.length + 1)) :
    strcat m dest src = .ok (m.write (dest + s.length) (t ++ [0#8]), dest) := by
  unfold strcat
  rw [C01_strlen hs hp hl, Res.ok_bind, strcatLoop_eq (by simpa using ht) (by simpa using hd)
    (by simpa using hdis)]
  simp

/-- C03: after `strcat` the destination holds the concatenation. -/
theorem C03_strcat_string {m : Mem} {dest : Nat} {s t : List Byte} (hs : m.IsStr dest s)
    (ht : ∀ b ∈ t, b ≠ 0#8) : (m.write (dest + s.length) (t ++ [0#8])).IsStr dest (s ++ t) := by
  rw [isStr_iff, List.append_assoc, holds_append]
  refine ⟨⟨hs.1.write (by omega), write_holds _ _ _⟩, ?_⟩
  intro b hb
  rcases List.mem_append.1 hb with hb | hb
  · exact hs.2.2 b hb
  · exact ht b hb

/-- C03: `strncat` reads at most `n` bytes of `src` (which need not be terminated) and appends the
text found there plus one NUL. -/
theorem C03_strncat {m : Mem} {dest src n : Nat} {s t : List Byte} (hs : m.IsStr dest s)
    (ht : StrN m src n t) (hn : n ≠ 0) (hd : m.Mapped (dest + s.length) (t.length + 1))
    (hdis : Disjoint (dest + s.length) (t.length + 1) src (min n (t.length + 1))) :
    strncat m dest src n = .ok (m.write (dest + s.length) (t ++ [0#8]), dest) := by
  unfold strncat
  rw [if_neg hn, findEnd_eq hs, Res.ok_bind, strncatLoop_eq ht hd hdis]
  simp

/-- C03: `strncat(dest,src,0)` changes nothing. -/
theorem C03_strncat_zero (m : Mem) (dest src : Nat) : strncat m dest src 0 = .ok (m, dest) := rfl

/-- Memory with room after the string at 400. -/
def exMem2 : Mem := objects [(100, [97, 98, 99, 0]), (400, [120, 0, 1, 1, 1, 1, 1, 1])]

example : strcat exMem2 400 100 = .ok (exMem2.write 401 [97, 98, 99, 0], 400) :=
  C03_strcat (s := [120]) (t := [97, 98, 99]) (by decide) (by decide) (by decide) (by decide)
    (by decide) (by intro a; simp; omega)

example : strncat exMem2 400 100 2 = .ok (exMem2.write 401 [97, 98, 0], 400) :=
  C03_strncat (n := 2) (s := [120]) (t := [97, 98]) (by decide) (by decide) (by decide) (by decide)
    (by intro a; simp; omega)

/-! ### C04 -/

/-- C04, full statement for `strncpy`: a source of `n` readable bytes suffices. -/
def C04_strncpy_full : Prop :=
  ∀ (m : Mem) (dest src n : Nat) (t : List Byte), StrN m src n t → m.Mapped dest n →
    Disjoint dest n src (min n (t.length + 1)) → n < 2147483648 →
    strncpy m dest src n = .ok (m.write dest (t ++ List.replicate (n - t.length) 0#8), dest)

/-- C04, full statement for `stpncpy`. -/
def C04_stpncpy_full : Prop :=
  ∀ (m : Mem) (dest src n : Nat) (t : List Byte), StrN m src n t → m.Mapped dest n →
    Disjoint dest n src (min n (t.length + 1)) → n < 2147483648 →
    stpncpy m dest src n =
      .ok (m.write dest (t ++ List.replicate (n - t.length) 0#8), dest + t.length)

/-- C04 fails: with an unterminated source of exactly `n` bytes, `strncpy` reads `src[n]`. -/
theorem C04_strncpy_refuted : ¬ C04_strncpy_full := by
  intro h
  have := h (objects [(100, [97]), (200, [1])]) 200 100 1 [97] (by decide) (by decide)
    (by intro a; simp; omega) (by decide)
  rw [strncpy, strncpyLoop, load_some (b := 97) (by decide)] at this
  simp [store, objects, incInt] at this
  rw [strncpyLoop, load_none (by decide)] at this
  simp at this

/-- C04 fails likewise for `stpncpy`. -/
theorem C04_stpncpy_refuted : ¬ C04_stpncpy_full := by
  intro h
  have := h (objects [(100, [97]), (200, [1])]) 200 100 1 [97] (by decide) (by decide)
    (by intro a; simp; omega) (by decide)
  rw [stpncpy, copyUntil, load_some (b := 97) (by decide)] at this
  simp [store, objects] at this
  rw [copyUntil, load_none (by decide)] at this
  simp at this

/-- C04 (partial: one byte more than `n` must be readable when the source fills the window). -/
theorem C04_strncpy_partial {m : Mem} {dest src n : Nat} {t : List Byte} (h : StrN m src n t)
    (hread : t.length = n → ∃ b, m (src + n) = some b)
    (hd : m.Mapped dest n) (hdis : Disjoint dest n src (min n (t.length + 1)))
    (hn : n < 2147483648) :
    strncpy m dest src n =
      .ok (m.write dest (t ++ List.replicate (n - t.length) 0#8), dest) := by
  have := @strncpyLoop_eq m dest src 0 n t (by simpa using h) (by simpa using hread)
    (by simpa using hd) (by simpa using hdis) (by omega)
  simp at this
  simp [strncpy, this]

/-- C04 (partial, same restriction): `stpncpy`. -/
theorem C04_stpncpy_partial {m : Mem} {dest src n : Nat} {t : List Byte} (h : StrN m src n t)
    (hread : t.length = n → ∃ b, m (src + n) = some b)
    (hd : m.Mapped dest n) (hdis : Disjoint dest n src (min n (t.length + 1))) :
    stpncpy m dest src n =
      .ok (m.write dest (t ++ List.replicate (n - t.length) 0#8), dest + t.length) := by
  have hle := strN_length_le h
  have := copyUntil_eq h hread (hd.mono hle) (fun a => by have := hdis a; omega)
  unfold stpncpy
  simp only [this, Res.ok_bind]
  rw [show dest + n - (dest + t.length) = n - t.length by omega, zeroFill_eq, Res.ok_bind,
    write_append]
  · rfl
  · intro i hi
    have := (hd.write dest t) (t.length + i) (by omega)
    rwa [← Nat.add_assoc] at this

/-- C04 for terminated sources: no further hypothesis on what is readable is needed. -/
theorem C04_strncpy_string_partial {m : Mem} {dest src n : Nat} {s : List Byte} (h : m.IsStr src s)
    (hd : m.Mapped dest n) (hdis : Disjoint dest n src (s.length + 1)) (hn : n < 2147483648) :
    strncpy m dest src n =
      .ok (m.write dest (s.take n ++ List.replicate (n - s.length) 0#8), dest) := by
  have h2 := C04_strncpy_partial (IsStr_strN h n)
    (fun e => by
      simp only [List.length_take] at e
      exact h.mapped n (by omega)) hd
    (fun a => by have := hdis a; simp only [List.length_take]; omega) hn
  rw [h2]
  have : n - (s.take n).length = n - s.length := by simp only [List.length_take]; omega
  rw [this]

example : strncpy exMem 400 100 6 = .ok (exMem.write 400 [97, 98, 99, 0, 0, 0], 400) :=
  C04_strncpy_partial (n := 6) (t := [97, 98, 99]) (by decide) (by simp) (by decide)
    (by intro a; simp; omega) (by decide)

example : stpncpy exMem 400 300 5 = .ok (exMem.write 400 [104, 101, 108, 108, 111], 405) :=
  C04_stpncpy_partial (n := 5) (t := [104, 101, 108, 108, 111]) (by decide)
    (fun _ => ⟨44, by decide⟩) (by decide) (by intro a; simp; omega)

example : strncpy exMem 400 300 5 = .ok (exMem.write 400 [104, 101, 108, 108, 111], 400) :=
  C04_strncpy_string_partial (n := 5)
    (s := [104, 101, 108, 108, 111, 44, 32, 119, 111, 114, 108, 100]) (by decide)
    (by decide) (by intro a; simp; omega) (by decide)

/-! ### C05 -/

/-- C05: `strlcpy` with a size `n + 1 ≥ 1` writes the first `n` bytes of text and a NUL; it reads
at most `n` bytes and writes at most `n + 1`. -/
theorem C05_strlcpy {m : Mem} {dest src n : Nat} {t : List Byte} (h : StrN m src n t)
    (hd : m.Mapped dest (t.length + 1))
    (hdis : Disjoint dest (t.length + 1) src (min n (t.length + 1))) (hn : n + 1 < 2147483648) :
    strlcpy m dest src (n + 1 : Nat) = .ok (m.write dest (t ++ [0#8]), dest) ∧
      (t ++ [0#8]).length ≤ n + 1 := by
  have := @strlcpyLoop_eq m dest src 0 n t (by simpa using h) (by simpa using hd)
    (by simpa using hdis) (by omega)
  rw [Nat.zero_add, Nat.add_zero] at this
  refine ⟨by simp only [strlcpy, this, Res.ok_bind]; rfl, ?_⟩
  have := strN_length_le h
  simpa using this

example : strlcpy exMem 400 300 6 = .ok (exMem.write 400 [104, 101, 108, 108, 111, 0], 400) :=
  (C05_strlcpy (n := 5) (t := [104, 101, 108, 108, 111]) (by decide) (by decide)
    (by intro a; simp; omega) (by decide)).1

/-- C05, full statement for `stplcpy`. -/
def C05_stplcpy_full : Prop :=
  ∀ (m : Mem) (dest src n : Nat) (s : List Byte), m.IsStr src s → m.Mapped dest (n + 1) →
    Disjoint dest (n + 1) src (s.length + 1) → n + 1 < 2147483648 →
    stplcpy m dest src (n + 1) =
      .ok (m.write dest (s.take n ++ [0#8]), dest + min n s.length)

/-- C05 fails for `stplcpy`: a source as long as the size makes it write `dest[size]`. -/
theorem C05_stplcpy_refuted : ¬ C05_stplcpy_full := by
  intro h
  have := h (objects [(100, [97, 0]), (200, [1])]) 200 100 0 [97] (by decide) (by decide)
    (by intro a; simp; omega) (by decide)
  rw [stplcpy, copyUntil, load_some (b := 97) (by decide)] at this
  simp [store, objects] at this
  rw [copyUntil, load_some (b := 0#8) (by decide)] at this
  simp [upd] at this
  simp [objects] at this

/-- C05 (partial: the source must be shorter than the size): `stplcpy`. -/
theorem C05_stplcpy_partial {m : Mem} {dest src n : Nat} {s : List Byte} (h : m.IsStr src s)
    (hlen : s.length < n) (hd : m.Mapped dest (s.length + 1))
    (hdis : Disjoint dest (s.length + 1) src (s.length + 1)) :
    stplcpy m dest src n = .ok (m.write dest (s ++ [0#8]), dest + s.length) := by
  have hN := IsStr_strN h n
  rw [List.take_of_length_le (by omega)] at hN
  have := copyUntil_eq hN (by omega) (hd.mono (by omega))
    (fun a => by have := hdis a; omega)
  unfold stplcpy
  obtain ⟨b, hb⟩ := (hd.write dest s) s.length (by omega)
  simp only [this, Res.ok_bind, store_some hb]
  rw [write_append, write_singleton]; rfl

/-- C05: what `stplcpy` really does for a source of at least `n` bytes: `n` bytes are copied and
the NUL lands at `dest[n]`, outside the given size. -/
theorem C05_stplcpy_long_partial {m : Mem} {dest src n : Nat} {s : List Byte} (h : m.IsStr src s)
    (hlen : n ≤ s.length) (hd : m.Mapped dest (n + 1))
    (hdis : Disjoint dest (n + 1) src (s.length + 1)) :
    stplcpy m dest src n = .ok (m.write dest (s.take n ++ [0#8]), dest + n) := by
  have hN := IsStr_strN h n
  have hl : (s.take n).length = n := by simp [hlen]
  have := copyUntil_eq hN (fun _ => h.mapped n (by omega)) (by rw [hl]; exact hd.mono (by omega))
    (fun a => by have := hdis a; rw [hl]; omega)
  unfold stplcpy
  obtain ⟨b, hb⟩ := (hd.write dest (s.take n)) n (by omega)
  rw [hl] at this
  simp only [this, Res.ok_bind, store_some hb]
  rw [write_append, write_singleton, hl]; rfl

example : stplcpy exMem 400 100 8 = .ok (exMem.write 400 [97, 98, 99, 0], 403) :=
  C05_stplcpy_partial (n := 8) (s := [97, 98, 99]) (by decide) (by decide) (by decide)
    (by intro a; simp; omega)

example : stplcpy exMem 400 100 2 = .ok (exMem.write 400 [97, 98, 0], 402) :=
  C05_stplcpy_long_partial (n := 2) (s := [97, 98, 99]) (by decide) (by decide) (by decide)
    (by intro a; simp; omega)

/-! ### C06 -/

/-- C06: the sign of `strcmp` is the lexicographic order (`<` on `List (BitVec 8)`, unsigned). -/
theorem C06_strcmp {m : Mem} {p q : Nat} {a b : List Byte} (ha : m.IsStr p a) (hb : m.IsStr q b)
    (hl : a.length < 2147483647) :
    ∃ r, strcmp m p q = .ok r ∧ (r < 0 ↔ a < b) ∧ (r = 0 ↔ a = b) ∧ (0 < r ↔ b < a) :=
  strcmpCore_neg ha hb (by omega) (by omega)

/-- C06: `strcmp` stops at the first difference: nothing behind it need be readable. -/
theorem C06_strcmp_reads {m : Mem} {p q : Nat} {c : List Byte} {x y : Byte}
    (ha : m.Holds p (c ++ [x])) (hb : m.Holds q (c ++ [y])) (hc : ∀ b ∈ c, b ≠ 0#8) (hxy : x ≠ y)
    (hl : c.length < 2147483647) :
    strcmp m p q = .ok ((x.toNat : Int) - (y.toNat : Int)) :=
  strcmpCore_diff ha hb hc hxy (Or.inl ⟨by omega, by omega⟩)

/-- C06: `strncmp(a,b,n)`, `n ≥ 1`, compares the texts seen through windows of `n` bytes. -/
theorem C06_strncmp {m : Mem} {p q n : Nat} {a b : List Byte} (ha : StrN m p (n + 1) a)
    (hb : StrN m q (n + 1) b) :
    ∃ r, strncmp m p q (n + 1 : Nat) = .ok r ∧ (r < 0 ↔ a < b) ∧ (r = 0 ↔ a = b) ∧
      (0 < r ↔ b < a) := by
  unfold strncmp
  rw [if_neg (by omega), if_neg (by omega)]
  push_cast
  exact strcmpCore_pos ha hb

/-- C06: `strncmp` with length 0 is 0. -/
theorem C06_strncmp_zero (m : Mem) (p q : Nat) : strncmp m p q 0 = .ok 0 := rfl

/-- C06: order laws, directly about three calls of `strcmp`: reflexive, antisymmetric in sign,
transitive. -/
theorem C06_strcmp_order {m : Mem} {p q r : Nat} {a b c : List Byte} (ha : m.IsStr p a)
    (hb : m.IsStr q b) (hc : m.IsStr r c) (la : a.length < 2147483647) (lb : b.length < 2147483647)
    :
    ∃ x y z w,
      strcmp m p p = .ok w ∧ strcmp m p q = .ok x ∧ strcmp m q p = .ok y ∧
      strcmp m q r = .ok z ∧
      w = 0 ∧ (x < 0 ↔ 0 < y) ∧ (x = 0 ↔ y = 0) ∧
      (x ≤ 0 → z ≤ 0 → ∃ u, strcmp m p r = .ok u ∧ u ≤ 0) := by
  obtain ⟨w, w1, w2, w3, w4⟩ := C06_strcmp ha ha la
  obtain ⟨x, x1, x2, x3, x4⟩ := C06_strcmp ha hb la
  obtain ⟨y, y1, y2, y3, y4⟩ := C06_strcmp hb ha lb
  obtain ⟨z, z1, z2, z3, z4⟩ := C06_strcmp hb hc lb
  obtain ⟨u, u1, u2, u3, u4⟩ := C06_strcmp ha hc la
  refine ⟨x, y, z, w, w1, x1, y1, z1, w3.2 rfl, x2.trans y4.symm, ?_, ?_⟩
  · rw [x3, y3]; exact eq_comm
  · intro hx hz
    refine ⟨u, u1, ?_⟩
    have h1 : ¬ b < a := fun h => by have := x4.2 h; omega
    have h2 : ¬ c < b := fun h => by have := z4.2 h; omega
    have h3 : ¬ c < a := fun h => by
      have hab : a ≤ b := List.not_lt.1 h1
      have hbc : b ≤ c := List.not_lt.1 h2
      exact List.not_lt.2 (List.le_trans hab hbc) h
    have : ¬ 0 < u := fun h => h3 (u4.1 h)
    omega

example : ∃ r, strcmp exMem 200 100 = .ok r ∧ r < 0 := by
  obtain ⟨r, h1, h2, _, _⟩ := C06_strcmp (m := exMem) (p := 200) (q := 100) (a := [97, 98])
    (b := [97, 98, 99]) (by decide) (by decide) (by decide)
  exact ⟨r, h1, h2.2 (by decide)⟩

example : ∃ r, strncmp exMem 200 100 2 = .ok r ∧ r = 0 := by
  obtain ⟨r, h1, _, h2, _⟩ := C06_strncmp (m := exMem) (p := 200) (q := 100) (n := 1) (a := [97, 98])
    (b := [97, 98]) (by decide) (by decide)
  exact ⟨r, h1, h2.2 rfl⟩

/-- "aX…" against "aY…" with nothing mapped behind the difference. -/
example : strcmp (objects [(10, [97, 200]), (20, [97, 5])]) 10 20 = .ok 195 :=
  C06_strcmp_reads (c := [97]) (x := 200) (y := 5) (by decide) (by decide) (by decide) (by decide)
    (by decide)

example : exMem.IsStr 100 [97, 98, 99] ∧ exMem.IsStr 200 [97, 98] ∧ exMem.IsStr 500 [44, 32] := by
  decide

/-! ### C07 -/

/-- C07, full statement. -/
def C07_strcasecmp_full : Prop :=
  ∀ (m : Mem) (p q : Nat) (a b : List Byte), m.IsStr p a → m.IsStr q b →
    a.length < 2147483647 → b.length < 2147483647 →
    ∃ r, strcasecmp m p q = .ok r ∧ (r < 0 ↔ a.map lower < b.map lower) ∧
      (r = 0 ↔ a.map lower = b.map lower)

/-- C07, full statement for `strncasecmp`. -/
def C07_strncasecmp_full : Prop :=
  ∀ (m : Mem) (p q n : Nat) (a b : List Byte), StrN m p n a → StrN m q n b → 1 ≤ n →
    n < 2147483647 →
    ∃ r, strncasecmp m p q n = .ok r ∧ (r < 0 ↔ a.map lower < b.map lower) ∧
      (r = 0 ↔ a.map lower = b.map lower)

/-- C07 fails: `strcasecmp("a","ab")` is 1, and `strcasecmp("ab","a")` is 1 as well. -/
theorem C07_strcasecmp_refuted : ¬ C07_strcasecmp_full := by
  intro h
  obtain ⟨r, h1, h2, h3⟩ := h (objects [(10, [97, 0]), (20, [97, 98, 0])]) 10 20 [97] [97, 98]
    (by decide) (by decide) (by decide) (by decide)
  rw [strcasecmp, strcasecmpLoop_eq (a := [97]) (b := [97, 98]) (by decide) (by decide) (by decide)]
    at h1
  simp [caseCmp] at h1
  subst h1
  exact absurd (h2.2 (by decide)) (by decide)

/-- C07 fails also on strings of equal length: "@" and "`" compare equal. -/
theorem C07_strcasecmp_refuted_equal :
    ∃ (m : Mem) (p q : Nat) (a b : List Byte), m.IsStr p a ∧ m.IsStr q b ∧
      strcasecmp m p q = .ok 0 ∧ a.map lower ≠ b.map lower := by
  refine ⟨objects [(10, [64, 0]), (20, [96, 0])], 10, 20, [64], [96], by decide, by decide, ?_,
    by decide⟩
  rw [strcasecmp, strcasecmpLoop_eq (a := [64]) (b := [96]) (by decide) (by decide) (by decide)]
  decide

/-- C07 fails: `strncasecmp("ab","ac",1)` is 1 although the first byte agrees. -/
theorem C07_strncasecmp_refuted : ¬ C07_strncasecmp_full := by
  intro h
  obtain ⟨r, h1, h2, h3⟩ := h (objects [(10, [97, 98, 0]), (20, [97, 99, 0])]) 10 20 1 [97] [97]
    (by decide) (by decide) (by decide) (by decide)
  have hr : r = 0 := h3.2 rfl
  subst hr
  rw [strncasecmp, if_neg (by decide), strcasecmpLoop, load_some (b := 97) (by decide)] at h1
  simp [load, objects, incInt] at h1
  rw [strcasecmpLoop, load_some (b := 98) (by decide)] at h1
  simp [load, objects] at h1

/-- The bytes on which the code's `|0x20` is the ASCII lower-case map: 0x20-0x3f, letters,
0x60-0x7f. -/
def CaseSafe (b : Byte) : Prop :=
  (0x20 ≤ b ∧ b ≤ 0x3f) ∨ (0x41 ≤ b ∧ b ≤ 0x5a) ∨ (0x60 ≤ b ∧ b ≤ 0x7f)

instance (b : Byte) : Decidable (CaseSafe b) := inferInstanceAs (Decidable (_ ∨ _))

theorem tolowerChar_eq (b : Byte) : CaseSafe b → tolowerChar b = ((lower b).toNat : Int) := by
  revert b; decide +kernel

theorem map_lower_eq {a b : List Byte} (ha : ∀ x ∈ a, CaseSafe x) (hb : ∀ x ∈ b, CaseSafe x) :
    a.map tolowerChar = b.map tolowerChar ↔ a.map lower = b.map lower := by
  induction a generalizing b with
  | nil => cases b <;> simp
  | cons x a ih =>
    cases b with
    | nil => simp
    | cons y b =>
      simp only [List.map_cons, List.cons.injEq]
      rw [ih (fun z hz => ha z (by simp [hz])) (fun z hz => hb z (by simp [hz])),
        tolowerChar_eq x (ha x (by simp)), tolowerChar_eq y (hb y (by simp))]
      rw [← BitVec.toNat_inj]
      constructor <;> rintro ⟨h1, h2⟩ <;> exact ⟨by omega, h2⟩

/-- C07 (partial: only bytes 0x20-0x3f, letters and 0x60-0x7f; only the equality half):
`strcasecmp` is 0 exactly when the strings agree modulo ASCII case. -/
theorem C07_strcasecmp_partial {m : Mem} {p q : Nat} {a b : List Byte} (ha : m.IsStr p a)
    (hb : m.IsStr q b) (hl : a.length < 2147483648) (sa : ∀ x ∈ a, CaseSafe x)
    (sb : ∀ x ∈ b, CaseSafe x) :
    ∃ r, strcasecmp m p q = .ok r ∧ (r = 0 ↔ a.map lower = b.map lower) := by
  refine ⟨caseCmp a b, strcasecmpLoop_eq (by simpa using ha) (by simpa using hb) (by simpa), ?_⟩
  rw [caseCmp_zero, map_lower_eq sa sb]

theorem caseCmp_sign {a b : List Byte} (hl : a.length = b.length) (ha : ∀ x ∈ a, CaseSafe x)
    (hb : ∀ x ∈ b, CaseSafe x) :
    (caseCmp a b < 0 ↔ a.map lower < b.map lower) ∧ (0 < caseCmp a b ↔ b.map lower < a.map lower) := by
  induction a generalizing b with
  | nil => cases b <;> simp [caseCmp] at *
  | cons x a ih =>
    cases b with
    | nil => simp at hl
    | cons y b =>
      have ex := tolowerChar_eq x (ha x (by simp))
      have ey := tolowerChar_eq y (hb y (by simp))
      have ih := @ih b (by simpa using hl) (fun z hz => ha z (by simp [hz]))
        (fun z hz => hb z (by simp [hz]))
      simp only [caseCmp, List.map_cons, List.cons_lt_cons_iff, BitVec.lt_def, ← BitVec.toNat_inj]
      rw [ex, ey]
      split
      · constructor <;> constructor <;> intro h <;> omega
      · split
        · constructor <;> constructor <;> intro h <;> omega
        · have e : (lower x).toNat = (lower y).toNat := by omega
          simp [e, ih]

/-- C07 (partial: as above, and the strings have equal length): the sign is the order of the
lower-cased strings. -/
theorem C07_strcasecmp_sign_partial {m : Mem} {p q : Nat} {a b : List Byte} (ha : m.IsStr p a)
    (hb : m.IsStr q b) (hl : a.length < 2147483648) (heq : a.length = b.length)
    (sa : ∀ x ∈ a, CaseSafe x) (sb : ∀ x ∈ b, CaseSafe x) :
    ∃ r, strcasecmp m p q = .ok r ∧ (r < 0 ↔ a.map lower < b.map lower) ∧
      (0 < r ↔ b.map lower < a.map lower) :=
  ⟨caseCmp a b, strcasecmpLoop_eq (by simpa using ha) (by simpa using hb) (by simpa),
    caseCmp_sign heq sa sb⟩

/-- "Hi!" and "hI!". -/
example : ∃ r, strcasecmp (objects [(10, [72, 105, 33, 0]), (20, [104, 73, 33, 0])]) 10 20 = .ok r ∧
    r = 0 := by
  obtain ⟨r, h1, h2⟩ := C07_strcasecmp_partial (m := objects [(10, [72, 105, 33, 0]),
    (20, [104, 73, 33, 0])]) (p := 10) (q := 20) (a := [72, 105, 33]) (b := [104, 73, 33])
    (by decide) (by decide) (by decide) (by decide) (by decide)
  exact ⟨r, h1, h2.2 (by decide)⟩

/-- "Ab" and "aC". -/
example : ∃ r, strcasecmp (objects [(10, [65, 98, 0]), (20, [97, 67, 0])]) 10 20 = .ok r ∧
    r < 0 := by
  obtain ⟨r, h1, h2, _⟩ := C07_strcasecmp_sign_partial (m := objects [(10, [65, 98, 0]),
    (20, [97, 67, 0])]) (p := 10) (q := 20) (a := [65, 98]) (b := [97, 67])
    (by decide) (by decide) (by decide) (by decide) (by decide) (by decide)
  exact ⟨r, h1, h2.2 (by decide)⟩

/-- C07 (partial: bytes as above): `strncasecmp` with a positive limit is 0 exactly when the strings agree modulo ASCII case and end within the
limit (by POSIX, strings that agree up to the limit compare equal too, see `C07_strncasecmp_refuted`). -/
theorem C07_strncasecmp_partial {m : Mem} {p q n : Nat} {a b : List Byte} (ha : m.IsStr p a) (hb : m.IsStr q b) (hn : 1 ≤ n)
    (hl : n < 2147483648) (sa : ∀ x ∈ a, CaseSafe x) (sb : ∀ x ∈ b, CaseSafe x) :
    ∃ r, strncasecmp m p q n = .ok r ∧ (r = 0 ↔ a.map lower = b.map lower ∧ a.length ≤ n) := by
  refine ⟨caseCmpN n a b, ?_, ?_⟩
  · have := strncasecmpLoop_eq (m := m) (p := p) (q := q) (k := 0) (n := n) (a := a) (b := b) (by simpa using ha) (by simpa using hb) (by omega)
    rw [Nat.zero_add] at this
    rw [strncasecmp, if_neg (by omega), this]
  · rw [caseCmpN_zero, map_lower_eq sa sb]

/-- C07 (partial: bytes as above, and the first difference modulo case is within the limit, and neither string ends there): the sign is that
difference, for strings of any lengths and for both functions. -/
theorem C07_difference_partial {m : Mem} {p q : Nat} {c d a b : List Byte} {x y : Byte} (ha : m.IsStr p (c ++ x :: a)) (hb : m.IsStr q (d ++ y :: b))
    (hcd : c.map lower = d.map lower) (hxy : lower x ≠ lower y) (sc : ∀ z ∈ c, CaseSafe z) (sd : ∀ z ∈ d, CaseSafe z) (sx : CaseSafe x) (sy : CaseSafe y)
    (hl : (c ++ x :: a).length < 2147483648) :
    (∃ r, strcasecmp m p q = .ok r ∧ (r < 0 ↔ lower x < lower y) ∧ (0 < r ↔ lower y < lower x)) ∧
    ∀ n : Nat, c.length < n → n < 2147483648 →
      ∃ r, strncasecmp m p q n = .ok r ∧ (r < 0 ↔ lower x < lower y) ∧ (0 < r ↔ lower y < lower x) := by
  have hcd' := (map_lower_eq sc sd).2 hcd
  have ex := tolowerChar_eq x sx
  have ey := tolowerChar_eq y sy
  have hne : (lower x).toNat ≠ (lower y).toNat := fun h => hxy (BitVec.eq_of_toNat_eq h)
  have hsign : ((if tolowerChar x < tolowerChar y then (-1 : Int) else 1) < 0 ↔ lower x < lower y) ∧
      (0 < (if tolowerChar x < tolowerChar y then (-1 : Int) else 1) ↔ lower y < lower x) := by
    rw [ex, ey]
    simp only [BitVec.lt_def]
    split
    · constructor <;> constructor <;> intro h <;> omega
    · constructor <;> constructor <;> intro h <;> omega
  constructor
  · refine ⟨_, strcasecmpLoop_eq (by simpa using ha) (by simpa using hb) (by simpa using hl), ?_⟩
    rw [caseCmp_diff hcd' (by omega)]
    exact hsign
  · intro n h1 h2
    refine ⟨caseCmpN n (c ++ x :: a) (d ++ y :: b), ?_, ?_⟩
    · have := strncasecmpLoop_eq (m := m) (p := p) (q := q) (k := 0) (n := n) (by simpa using ha) (by simpa using hb) (by omega)
      rw [Nat.zero_add] at this
      rw [strncasecmp, if_neg (by omega), this]
    · rw [caseCmpN_diff hcd' h1 (by omega)]
      exact hsign

/-- C07 fails: with the limit 0 the result is -1, whatever the strings are. -/
theorem C07_strncasecmp_none_refuted (m : Mem) (p q : Nat) : strncasecmp m p q 0 = .ok (-1) := rfl

/-- "aB" and "Ab" are equal with the limit 5. -/
example : strncasecmp (objects [(10, [97, 66, 0]), (20, [65, 98, 0])]) 10 20 5 = .ok 0 := by
  obtain ⟨r, h1, h2⟩ := C07_strncasecmp_partial (m := objects [(10, [97, 66, 0]), (20, [65, 98, 0])]) (p := 10) (q := 20) (n := 5)
    (a := [97, 66]) (b := [65, 98]) (by decide) (by decide) (by decide) (by decide) (by decide) (by decide)
  rw [h2.2 (by decide)] at h1
  exact h1

/-- "Abx" and "aCyz". -/
example : ∃ r, strncasecmp (objects [(10, [65, 98, 120, 0]), (20, [97, 67, 121, 122, 0])]) 10 20 2 = .ok r ∧ r < 0 := by
  obtain ⟨_, h⟩ := C07_difference_partial (m := objects [(10, [65, 98, 120, 0]), (20, [97, 67, 121, 122, 0])]) (p := 10) (q := 20)
    (c := [65]) (d := [97]) (x := 98) (y := 67) (a := [120]) (b := [121, 122]) (by decide) (by decide) (by decide) (by decide) (by decide) (by decide)
    (by decide) (by decide) (by decide)
  obtain ⟨r, h1, h2, _⟩ := h 2 (by decide) (by decide)
  exact ⟨r, h1, h2.2 (by decide)⟩

/-! ### C08 -/

/-- `i` is the first position of `l` holding the byte `c`. -/
def IsFirst (l : List Byte) (c : Byte) (i : Nat) : Prop :=
  l[i]? = some c ∧ ∀ j, j < i → l[j]? ≠ some c

/-- `i` is the last position of `l` holding the byte `c`. -/
def IsLast (l : List Byte) (c : Byte) (i : Nat) : Prop :=
  l[i]? = some c ∧ ∀ j, i < j → l[j]? ≠ some c

/-- C08, full statement for `strchr`: the terminating NUL belongs to the string and `c` is
converted to `char`. -/
def C08_strchr_full : Prop :=
  ∀ (m : Mem) (p : Nat) (s : List Byte) (c : Int), m.IsStr p s → p ≠ 0 →
    (∃ i, IsFirst (s ++ [0#8]) (BitVec.ofInt 8 c) i ∧ strchr m p c = .ok (p + i)) ∨
    (BitVec.ofInt 8 c ∉ s ++ [0#8] ∧ strchr m p c = .ok 0)

/-- C08, full statement for `strrchr`. -/
def C08_strrchr_full : Prop :=
  ∀ (m : Mem) (p : Nat) (s : List Byte) (c : Int), m.IsStr p s → p ≠ 0 →
    (∃ i, IsLast (s ++ [0#8]) (BitVec.ofInt 8 c) i ∧ strrchr m p c = .ok (p + i)) ∨
    (BitVec.ofInt 8 c ∉ s ++ [0#8] ∧ strrchr m p c = .ok 0)

/-- C08 fails: `strchr("\xe4", 0xe4)` is NULL (the byte is compared as a negative `char` with the
`int` 0xe4). -/
theorem C08_strchr_refuted : ¬ C08_strchr_full := by
  intro h
  have e : strchr (objects [(10, [0xe4, 0])]) 10 0xe4 = .ok 0 := by
    rw [strchr, strchrnul_eq (s := [0xe4]) (by decide)]; decide
  rcases h (objects [(10, [0xe4, 0])]) 10 [0xe4] 0xe4 (by decide) (by decide) with ⟨i, _, h2⟩ | ⟨h1, _⟩
  · rw [e] at h2; injection h2; omega
  · exact absurd h1 (by decide)

/-- C08 fails: `strrchr(s, 0)` is NULL instead of the address of the terminator. -/
theorem C08_strrchr_refuted : ¬ C08_strrchr_full := by
  intro h
  have e : strrchr (objects [(10, [0])]) 10 0 = .ok 0 := strrchrLoop_nil 0 (by decide)
  rcases h (objects [(10, [0])]) 10 [] 0 (by decide) (by decide) with ⟨i, _, h2⟩ | ⟨h1, _⟩
  · rw [e] at h2; injection h2; omega
  · exact absurd h1 (by decide)

theorem isFirst_takeWhile {s : List Byte} {c : Byte} (hc : c ∈ s) :
    IsFirst s c (s.takeWhile (fun b => decide (b ≠ c))).length := by
  induction s with
  | nil => simp at hc
  | cons b s ih =>
    by_cases hb : b = c
    · subst hb; exact ⟨by simp, by intro j hj; simp at hj⟩
    · have := ih (by simpa [Ne.symm hb] using hc)
      rw [List.takeWhile_cons_of_pos (by simpa using hb), List.length_cons]
      refine ⟨by simpa using this.1, ?_⟩
      intro j hj
      cases j with
      | zero => simpa using hb
      | succ j => simpa using this.2 j (by omega)

theorem takeWhile_all {s : List Byte} {c : Byte} (hc : c ∉ s) :
    (s.takeWhile (fun b => decide (b ≠ c))).length = s.length := by
  induction s with
  | nil => rfl
  | cons b s ih =>
    simp only [List.mem_cons, not_or] at hc
    rw [List.takeWhile_cons_of_pos (by simpa using Ne.symm hc.1), List.length_cons, ih hc.2]; rfl

/-- C08 for `strchrnul` called with a `char` value `c`: first occurrence, or the terminator.  (A
value outside −128…127 never matches, see `C08_strchr_refuted`; partial.) -/
theorem C08_strchrnul_partial {m : Mem} {p : Nat} {s : List Byte} (h : m.IsStr p s) (c : Byte) :
    (∃ i, IsFirst s c i ∧ strchrnul m p c.toInt = .ok (p + i)) ∨
    (c ∉ s ∧ strchrnul m p c.toInt = .ok (p + s.length)) := by
  rw [strchrnul_eq h]
  have e : (fun b : Byte => decide (b.toInt ≠ c.toInt)) = fun b => decide (b ≠ c) := by
    funext b; simp [BitVec.toInt_inj]
  rw [e]
  by_cases hc : c ∈ s
  · exact Or.inl ⟨_, isFirst_takeWhile hc, rfl⟩
  · exact Or.inr ⟨hc, by rw [takeWhile_all hc]⟩

/-- C08 for `strchr` called with a `char` value (partial in the same sense). -/
theorem C08_strchr_partial {m : Mem} {p : Nat} {s : List Byte} (h : m.IsStr p s) (c : Byte) :
    (∃ i, IsFirst (s ++ [0#8]) c i ∧ strchr m p c.toInt = .ok (p + i)) ∨
    (c ∉ s ++ [0#8] ∧ strchr m p c.toInt = .ok 0) := by
  unfold strchr
  have h0 : c.toInt = 0 ↔ c = 0#8 := by
    rw [← BitVec.toInt_inj]; simp
  rcases C08_strchrnul_partial h c with ⟨i, h1, h2⟩ | ⟨h1, h2⟩
  · left
    have hi : i < s.length := by
      have := h1.1
      exact (List.getElem?_eq_some_iff.1 this).1
    have hsi : s[i] = c := (List.getElem?_eq_some_iff.1 h1.1).2
    have hmem : c ∈ s := hsi ▸ List.getElem_mem hi
    refine ⟨i, ⟨?_, ?_⟩, ?_⟩
    · rw [List.getElem?_append_left hi]; exact h1.1
    · intro j hj
      rw [List.getElem?_append_left (by omega)]; exact h1.2 j hj
    · rw [h2, Res.ok_bind]
      have hne : c ≠ 0#8 := h.2.2 c hmem
      rw [if_neg (fun e => hne (h0.1 e)), load_some (h.1 i hi), Res.ok_bind, hsi, if_neg hne]
      rfl
  · by_cases hz : c = 0#8
    · left
      refine ⟨s.length, ⟨by simp [hz], ?_⟩, ?_⟩
      · intro j hj
        rw [List.getElem?_append_left hj]
        intro e
        exact h1 (List.mem_of_getElem? e)
      · rw [h2, Res.ok_bind, if_pos (h0.2 hz)]; rfl
    · right
      refine ⟨by simp [h1, hz], ?_⟩
      rw [h2, Res.ok_bind, if_neg (fun e => hz (h0.1 e)), load_some h.2.1, Res.ok_bind, if_pos rfl]
      rfl

/-- C08 for `strrchr` called with a nonzero `char` value (partial). -/
theorem C08_strrchr_partial {m : Mem} {p : Nat} {s : List Byte} (h : m.IsStr p s) (hp : p ≠ 0)
    (c : Byte) :
    (∃ i, IsLast s c i ∧ strrchr m p c.toInt = .ok (p + i)) ∨
    (c ∉ s ∧ strrchr m p c.toInt = .ok 0) := by
  rcases strrchrLoop_eq (ret := 0) h hp c.toInt with ⟨i, ⟨hi, h1⟩, h2, h3⟩ | ⟨h1, h2⟩
  · left
    refine ⟨i, ⟨?_, ?_⟩, h3⟩
    · rw [List.getElem?_eq_getElem hi, BitVec.toInt_inj.1 h1]
    · intro j hij e
      obtain ⟨hj, e⟩ := List.getElem?_eq_some_iff.1 e
      exact h2 j hj hij (by rw [e])
  · right
    exact ⟨fun hc => h1 c hc rfl, h2⟩

/-- 'o' in "hello, world" is first at 4 and last at 8. -/
example : IsFirst [104, 101, 108, 108, 111, 44, 32, 119, 111, 114, 108, 100] 111 4 ∧
    exMem.IsStr 300 [104, 101, 108, 108, 111, 44, 32, 119, 111, 114, 108, 100] := by
  refine ⟨⟨by decide, ?_⟩, by decide⟩
  decide

example : strchr exMem 300 111 = .ok 304 := by
  rw [strchr, strchrnul_eq (s := [104, 101, 108, 108, 111, 44, 32, 119, 111, 114, 108, 100])
    (by decide)]; decide

/-! ### C09 -/

/-- `n` is the length of the longest prefix of `s` all of whose bytes satisfy `P`. -/
def MaxPrefix (P : Byte → Prop) (s : List Byte) (n : Nat) : Prop :=
  n ≤ s.length ∧ (∀ i (h : i < s.length), i < n → P s[i]) ∧ ∀ h : n < s.length, ¬ P s[n]

theorem maxPrefix_takeWhile (P : Byte → Prop) [DecidablePred P] (s : List Byte) :
    MaxPrefix P s (s.takeWhile (fun b => decide (P b))).length := by
  induction s with
  | nil => exact ⟨by simp, by simp, by simp⟩
  | cons b s ih =>
    by_cases hb : P b
    · rw [List.takeWhile_cons_of_pos (by simpa using hb), List.length_cons]
      refine ⟨by simpa using ih.1, ?_, fun h => by simpa using ih.2.2 (by simpa using h)⟩
      intro i h hi
      cases i with
      | zero => simpa using hb
      | succ i => simpa using ih.2.1 i (by simpa using h) (by omega)
    · rw [List.takeWhile_cons_of_neg (by simpa using hb)]
      exact ⟨by simp, by simp, fun h => by simpa using hb⟩

/-- C09: `strcspn` (plain build variant). -/
theorem C09_strcspn {m : Mem} {p q : Nat} {s t : List Byte} (hs : m.IsStr p s) (ht : m.IsStr q t) :
    ∃ n, strcspn m p q = .ok n ∧ MaxPrefix (fun b => b ∉ t) s n := by
  have := @strcspnLoop_eq m p q 0 s t (by simpa using hs) ht
  rw [Nat.add_zero, Nat.zero_add] at this
  exact ⟨_, this, maxPrefix_takeWhile (fun b => b ∉ t) s⟩

/-- C09: `strcspn` (OPTIMIZE build variant) agrees with the plain variant. -/
theorem C09_strcspn_variants {m : Mem} {p q : Nat} {s t : List Byte} (hs : m.IsStr p s)
    (ht : m.IsStr q t) : strcspnOpt m p q = strcspn m p q := by
  have h1 := @strcspnLoop_eq m p q 0 s t (by simpa using hs) ht
  have h2 := @strcspnOptLoop_eq m p q 0 s t (by simpa using hs) ht
  rw [strcspn, strcspnOpt, orMask_eq ht, Res.ok_bind]
  simp only [Nat.add_zero] at h1 h2
  rw [h1, h2]

/-- C09, full statement for `strspn`. -/
def C09_strspn_full : Prop :=
  ∀ (m : Mem) (p q : Nat) (s t : List Byte), m.IsStr p s → m.IsStr q t →
    ∃ n, strspn m p q = .ok n ∧ MaxPrefix (fun b => b ∈ t) s n

/-- C09 fails: `strspn("aa","a")` is 1, because after the first match the first byte of the accept
set is skipped. -/
theorem C09_strspn_refuted : ¬ C09_strspn_full := by
  intro h
  obtain ⟨n, h1, h2⟩ := h (objects [(10, [97, 97, 0]), (20, [97, 0])]) 10 20 [97, 97] [97]
    (by decide) (by decide)
  rw [strspn_eq (s := [97, 97]) (t := [97]) (by decide) (by decide) (by decide)] at h1
  simp at h1
  subst h1
  exact h2.2.2 (by decide) (by decide)

/-- C09 fails: `strspn("","")` reads past the accept set. -/
theorem C09_strspn_overread : ∃ (m : Mem) (p q : Nat), m.IsStr p [] ∧ m.IsStr q [] ∧
    strspn m p q = .ub := by
  refine ⟨objects [(10, [0]), (20, [0])], 10, 20, by decide, by decide, ?_⟩
  rw [strspn, strspnLoop, load_some (b := 0#8) (by decide), Res.ok_bind,
    load_some (b := 0#8) (by decide), Res.ok_bind]
  simp only [if_true]
  rw [load_none (by decide)]; rfl

/-- C09 (partial): exact result of `strspn` unless both strings are empty: after the first byte the
accept set has lost its first member. -/
theorem C09_strspn_partial {m : Mem} {p q : Nat} {s t : List Byte} (hs : m.IsStr p s)
    (ht : m.IsStr q t) (hne : ¬ (s = [] ∧ t = [])) :
    strspn m p q = .ok (match s with
      | [] => 0
      | b :: s' => if b ∈ t then 1 + (s'.takeWhile (fun c => decide (c ∈ t.tail))).length else 0) :=
  strspn_eq hs ht hne

theorem takeWhile_congr' {f g : Byte → Bool} {s : List Byte} (h : ∀ b ∈ s, f b = g b) :
    s.takeWhile f = s.takeWhile g := by
  induction s with
  | nil => rfl
  | cons b s ih =>
    simp only [List.takeWhile_cons, h b (by simp), ih (fun c hc => h c (by simp [hc]))]

/-- C09 (partial): `strspn` is right when the first byte of the accept set also occurs later in it,
or not at all in the text after its first byte. -/
theorem C09_strspn_ok_partial {m : Mem} {p q : Nat} {s t : List Byte} {x : Byte}
    (hs : m.IsStr p s) (ht : m.IsStr q (x :: t)) (hx : x ∈ t ∨ x ∉ s.tail) :
    ∃ n, strspn m p q = .ok n ∧ MaxPrefix (fun b => b ∈ x :: t) s n := by
  refine ⟨_, ?_, maxPrefix_takeWhile (fun b => b ∈ x :: t) s⟩
  rw [strspn_eq hs ht (by simp)]
  cases s with
  | nil => simp
  | cons b s =>
    by_cases hb : b ∈ x :: t
    · simp only [hb, if_true, List.takeWhile_cons, decide_true, List.length_cons]
      rw [Nat.add_comm, takeWhile_congr' (f := fun c => decide (c ∈ (x :: t).tail))
        (g := fun c => decide (c ∈ x :: t))]
      intro c hc
      apply decide_eq_decide.2
      simp only [List.tail_cons] at hx
      simp only [List.mem_cons, List.tail_cons]
      constructor
      · exact Or.inr
      · rintro (rfl | h)
        · rcases hx with hx | hx
          · exact hx
          · exact absurd hc hx
        · exact h
    · simp only [if_neg hb]
      rw [List.takeWhile_cons_of_neg (by simpa using hb)]; rfl

example : ∃ n, strspn (objects [(10, [97, 98, 99, 0]), (20, [97, 98, 0])]) 10 20 = .ok n ∧
    MaxPrefix (fun b => b ∈ [97, 98]) [97, 98, 99] n :=
  C09_strspn_ok_partial (t := [98]) (by decide) (by decide) (Or.inr (by decide))

example : ∃ n, strcspn exMem 300 500 = .ok n ∧ n = 5 := by
  obtain ⟨n, h1, h2⟩ := C09_strcspn (m := exMem) (p := 300) (q := 500)
    (s := [104, 101, 108, 108, 111, 44, 32, 119, 111, 114, 108, 100]) (t := [44, 32]) (by decide)
    (by decide)
  refine ⟨n, h1, ?_⟩
  have e := @strcspnLoop_eq exMem 300 500 0
    [104, 101, 108, 108, 111, 44, 32, 119, 111, 114, 108, 100] [44, 32] (by decide) (by decide)
  rw [strcspn] at h1
  rw [Nat.add_zero, h1] at e
  injection e

/-! ### C10 -/

/-- C10, full statement. -/
def C10_strpbrk_full : Prop :=
  ∀ (m : Mem) (p q : Nat) (s t : List Byte), m.IsStr p s → m.IsStr q t → p ≠ 0 → q ≠ 0 →
    (∃ i, (∃ h : i < s.length, s[i] ∈ t) ∧ (∀ j (h : j < s.length), j < i → s[j] ∉ t) ∧
      strpbrk m p q = .ok (p + i)) ∨
    ((∀ b ∈ s, b ∉ t) ∧ strpbrk m p q = .ok 0)

/-- C10: what `strpbrk` returns: the string itself unless it is empty. -/
theorem C10_strpbrk_computes_partial {m : Mem} {p q : Nat} {s t : List Byte} (hs : m.IsStr p s)
    (ht : m.IsStr q t) (hq : q ≠ 0) : strpbrk m p q = .ok (if s = [] then 0 else p) := by
  cases s with
  | nil => rw [strpbrk, load_some (isStr_nil.1 hs)]; simp
  | cons b s =>
    obtain ⟨h1, h2, h3⟩ := isStr_cons.1 hs
    rw [strpbrk, load_some h1, Res.ok_bind, if_pos h2, strchrnul_eq ht, Res.ok_bind,
      if_pos (by omega)]
    simp

/-- C10 fails: `strpbrk("ab","b")` is the address of the 'a'. -/
theorem C10_strpbrk_refuted : ¬ C10_strpbrk_full := by
  intro h
  have e : strpbrk (objects [(10, [97, 98, 0]), (20, [98, 0])]) 10 20 = .ok 10 :=
    C10_strpbrk_computes_partial (s := [97, 98]) (t := [98]) (by decide) (by decide) (by decide)
  rcases h (objects [(10, [97, 98, 0]), (20, [98, 0])]) 10 20 [97, 98] [98] (by decide) (by decide)
    (by decide) (by decide) with ⟨i, ⟨h1, h2⟩, _, h3⟩ | ⟨h1, _⟩
  · rw [e] at h3
    injection h3 with h3
    have : i = 0 := by omega
    subst this
    simp at h2
  · exact absurd h1 (by decide)

/-- C10 (partial): `strpbrk` is right on the empty string and when the first byte is in the set. -/
theorem C10_strpbrk_partial {m : Mem} {p q : Nat} {b : Byte} {s t : List Byte}
    (ht : m.IsStr q t) (hq : q ≠ 0) :
    (m.IsStr p [] → strpbrk m p q = .ok 0) ∧
    (m.IsStr p (b :: s) → b ∈ t → strpbrk m p q = .ok p) :=
  ⟨fun h => by simpa using C10_strpbrk_computes_partial h ht hq,
   fun h _ => by simpa using C10_strpbrk_computes_partial h ht hq⟩

example : strpbrk exMem 100 200 = .ok 100 :=
  (C10_strpbrk_partial (b := 97) (s := [98, 99]) (t := [97, 98]) (by decide) (by decide)).2
    (by decide) (by decide)

/-! ### C11 -/

/-- C11, full statement. -/
def C11_strstr_full : Prop :=
  ∀ (m : Mem) (p q : Nat) (big little : List Byte), m.IsStr p big → m.IsStr q little → p ≠ 0 →
    (∃ i, FirstOcc big little i ∧ strstr m p q = .ok (p + i)) ∨
    ((∀ i, ¬ little <+: big.drop i) ∧ strstr m p q = .ok 0)

/-- C11 fails: `strstr("", "x")` reads past the terminator of the empty string. -/
theorem C11_strstr_refuted : ¬ C11_strstr_full := by
  intro h
  have e : strstr (objects [(10, [0]), (20, [120, 0])]) 10 20 = .ub := by
    rw [strstr, load_some (b := 120) (by decide), Res.ok_bind, if_neg (by decide), strstrLoop,
      load_some (b := 0#8) (by decide), Res.ok_bind, load_some (b := 120) (by decide), Res.ok_bind]
    simp only [show ¬ (0#8 = (120 : Byte)) by decide, if_false, Res.pure_eq, Res.ok_bind]
    rw [load_none (by decide)]; rfl
  rcases h (objects [(10, [0]), (20, [120, 0])]) 10 20 [] [120] (by decide) (by decide)
    (by decide) with ⟨i, _, h2⟩ | ⟨_, h2⟩ <;> rw [e] at h2 <;> cases h2

/-- C11 (partial: `big` is not empty, or `little` is): `strstr` finds the first occurrence, reading
nothing outside the two strings. -/
theorem C11_strstr_partial {m : Mem} {p q : Nat} {big little : List Byte} (hb : m.IsStr p big)
    (hl : m.IsStr q little) (hne : big ≠ [] ∨ little = []) :
    (∃ i, FirstOcc big little i ∧ strstr m p q = .ok (p + i)) ∨
    ((∀ i, ¬ little <+: big.drop i) ∧ strstr m p q = .ok 0) := by
  unfold strstr
  by_cases h0 : little = []
  · subst h0
    left
    refine ⟨0, ⟨by simp, by simp, by omega⟩, ?_⟩
    rw [load_some (isStr_nil.1 hl)]; simp
  · obtain ⟨c, t, rfl⟩ : ∃ c t, little = c :: t := by
      cases little with
      | nil => simp at h0
      | cons c t => exact ⟨c, t, rfl⟩
    obtain ⟨g1, g2, g3⟩ := isStr_cons.1 hl
    rw [load_some g1, Res.ok_bind, if_neg g2]
    have := @strstrLoop_eq m p q 0 big (c :: t) (by simpa using hb)
      (hne.resolve_right (by simp)) hl (by simp)
    simpa using this

/-- "hello, world" contains ", " first at 5. -/
example : ∃ i, FirstOcc [104, 101, 108, 108, 111, 44, 32, 119, 111, 114, 108, 100] [44, 32] i ∧
      strstr exMem 300 500 = .ok (300 + i) := by
  rcases C11_strstr_partial (m := exMem) (p := 300) (q := 500)
    (big := [104, 101, 108, 108, 111, 44, 32, 119, 111, 114, 108, 100]) (little := [44, 32])
    (by decide) (by decide) (Or.inl (by decide)) with h | ⟨h, _⟩
  · exact h
  · exact absurd (h 5) (by decide)

/-! ### C12 -/

/-- C12: the sequence of calls `strtok_r(s,…), strtok_r(NULL,…), …` returns exactly the maximal
delimiter-free pieces in order, each NUL-terminated in place; the only bytes changed are delimiters
of the text (they become NUL), and nothing outside the text and the delimiter set is read. -/
theorem C12_strtok {m : Mem} {p q last : Nat} {s t : List Byte} (hs : m.IsStr p s)
    (ht : m.IsStr q t) (hp : p ≠ 0) (hdis : Disjoint p (s.length + 1) q (t.length + 1)) :
    ∃ m' ps, strtokAll m p q last = .ok (m', ps) ∧
      AllStr m' ps (pieces (fun b => decide (b ∈ t)) s) ∧
      (∀ a ∈ ps, p ≤ a ∧ a < p + s.length) ∧ ps.Pairwise (· < ·) ∧
      (∀ a, m' a = m a ∨ ∃ i, ∃ h : i < s.length, a = p + i ∧ s[i] ∈ t ∧ m' a = some 0#8) :=
  strtokAll_eq hs ht hp hdis

/-- "hello, world" cut at ", ". -/
example : ∃ m' ps, strtokAll exMem 300 500 0 = .ok (m', ps) ∧
    AllStr m' ps [[104, 101, 108, 108, 111], [119, 111, 114, 108, 100]] := by
  obtain ⟨m', ps, h1, h2, _⟩ := C12_strtok (m := exMem) (p := 300) (q := 500) (last := 0)
    (s := [104, 101, 108, 108, 111, 44, 32, 119, 111, 114, 108, 100]) (t := [44, 32]) (by decide)
    (by decide) (by decide) (by intro a; simp; omega)
  exact ⟨m', ps, h1, h2⟩

example : (exMem2.write 401 [97, 98, 99, 0]).IsStr 400 [120, 97, 98, 99] :=
  C03_strcat_string (m := exMem2) (dest := 400) (s := [120]) (t := [97, 98, 99]) (by decide) (by decide)

/-- C08: no 'z' in "abc": the end of it. -/
example : strchrnul exMem 100 122 = .ok 103 := by
  rcases C08_strchrnul_partial (m := exMem) (p := 100) (s := [97, 98, 99]) (by decide) 122#8 with ⟨i, h, -⟩ | ⟨-, h⟩
  · exact absurd (List.mem_of_getElem? h.1) (by decide)
  · exact h

/-- C09, C10: "abc" and "ab". -/
example : strcspnOpt exMem 100 200 = strcspn exMem 100 200 ∧ strspn exMem 100 200 = .ok 2 ∧ strpbrk exMem 100 200 = .ok 100 :=
  ⟨C09_strcspn_variants (s := [97, 98, 99]) (t := [97, 98]) (by decide) (by decide),
   C09_strspn_partial (s := [97, 98, 99]) (t := [97, 98]) (by decide) (by decide) (by decide),
   C10_strpbrk_computes_partial (s := [97, 98, 99]) (t := [97, 98]) (by decide) (by decide) (by decide)⟩

end Minilib

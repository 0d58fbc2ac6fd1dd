import Verif.Model.Str
import Verif.Spec.Str
/-
Helper lemmas: the loops of the string models, by induction on the string.
-/

set_option autoImplicit false

namespace Minilib
open Mem Spec

theorem strlenLoop_eq {m : Mem} {p a : Nat} {s : List Byte} (h : m.IsStr (p + a) s)
    (hl : a + s.length < 2147483648) : strlenLoop m p a = .ok (a + s.length) := by
  induction s generalizing a with
  | nil => rw [strlenLoop, load_some (isStr_nil.1 h)]; simp
  | cons b s ih =>
    obtain ⟨h1, h2, h3⟩ := isStr_cons.1 h
    rw [List.length_cons] at hl
    rw [strlenLoop, load_some h1]
    simp only [Res.ok_bind, ne_eq, h2, not_false_eq_true, if_true, incInt_ok (show a < 2147483647 by omega)]
    rw [ih (by rw [← Nat.add_assoc]; exact h3) (by omega)]
    simp; omega

theorem strnlenLoop_eq {m : Mem} {p a n : Nat} {s : List Byte} (h : StrN m (p + a) n s)
    (hn : 1 ≤ n) (hl : a + n < 2147483648) :
    strnlenLoop m p ((a + n : Nat) : Int) a = .ok ((a + s.length : Nat) : Int) := by
  induction s generalizing a n with
  | nil =>
    obtain ⟨h1, h2, h3 | ⟨h3, h4⟩⟩ := h
    · simp at h3; omega
    · rw [strnlenLoop, load_some (by simpa using h4)]; simp
  | cons b s ih =>
    obtain ⟨h1, h2, h3⟩ := h
    rw [holds_cons] at h1
    rw [strnlenLoop, load_some h1.1]
    simp only [Res.ok_bind, ne_eq, h2 b (by simp), not_false_eq_true, if_true,
      incInt_ok (show a < 2147483647 by omega)]
    by_cases hn1 : n = 1
    · subst hn1
      simp only [List.length_cons] at h3
      have : s.length = 0 := by omega
      simp [this]
    · obtain ⟨k, rfl⟩ : ∃ k, n = k + 1 := ⟨n - 1, by omega⟩
      rw [if_neg (by omega)]
      have := @ih (a + 1) k ⟨by rw [← Nat.add_assoc]; exact h1.2, fun b hb => h2 b (by simp [hb]), ?_⟩
        (by omega) (by omega)
      · rw [show a + (k + 1) = a + 1 + k by omega, this]; simp; omega
      · rcases h3 with h3 | ⟨h3, h4⟩
        · left; simpa using h3
        · right; refine ⟨by simpa using h3, ?_⟩
          rw [List.length_cons] at h4
          rw [show p + (a + 1) + s.length = p + a + (s.length + 1) by omega]; exact h4

theorem stpcpyLoop_eq {m : Mem} {d src : Nat} {s : List Byte} (h : m.IsStr src s)
    (hd : m.Mapped d (s.length + 1)) (hdis : Disjoint d (s.length + 1) src (s.length + 1)) :
    stpcpyLoop m d src = .ok (m.write d (s ++ [0#8]), d + s.length) := by
  induction s generalizing m d src with
  | nil =>
    obtain ⟨b, hb⟩ := (mapped_succ.1 hd).1
    rw [stpcpyLoop, load_some (isStr_nil.1 h)]
    simp [store_some hb, write_singleton]
  | cons b s ih =>
    obtain ⟨h1, h2, h3⟩ := isStr_cons.1 h
    have hdis' : d + s.length + 1 < src ∨ src + s.length + 1 < d := by
      rw [List.length_cons] at hdis
      by_cases hc : d ≤ src
      · have := hdis src; omega
      · have := hdis d; omega
    rw [List.length_cons, mapped_succ] at hd
    obtain ⟨⟨c, hc⟩, hd⟩ := hd
    rw [stpcpyLoop, load_some h1]
    simp only [ne_eq, h2, not_false_eq_true, if_true, Res.ok_bind, store_some hc]
    rw [ih (h3.upd _ (by omega)) (hd.upd _ _) (by intro a; omega)]
    rw [List.cons_append, write_cons, List.length_cons, Nat.add_assoc, Nat.add_comm 1]

theorem strcatLoop_eq {m : Mem} {dest n src i : Nat} {s : List Byte} (h : m.IsStr (src + i) s)
    (hd : m.Mapped (dest + (n + i)) (s.length + 1))
    (hdis : Disjoint (dest + (n + i)) (s.length + 1) (src + i) (s.length + 1)) :
    strcatLoop m dest n src i = .ok (m.write (dest + (n + i)) (s ++ [0#8])) := by
  induction s generalizing m i with
  | nil =>
    obtain ⟨b, hb⟩ := (mapped_succ.1 hd).1
    rw [strcatLoop, load_some (isStr_nil.1 h)]
    simp [store_some hb, write_singleton]
  | cons b s ih =>
    obtain ⟨h1, h2, h3⟩ := isStr_cons.1 h
    have hdis' : dest + (n + i) + s.length + 1 < src + i ∨ src + i + s.length + 1 < dest + (n + i) := by
      rw [List.length_cons] at hdis
      by_cases hc : dest + (n + i) ≤ src + i
      · have := hdis (src + i); omega
      · have := hdis (dest + (n + i)); omega
    rw [List.length_cons, mapped_succ] at hd
    obtain ⟨⟨c, hc⟩, hd⟩ := hd
    rw [strcatLoop, load_some h1]
    simp only [ne_eq, h2, not_false_eq_true, if_true, Res.ok_bind, store_some hc]
    rw [ih (by rw [← Nat.add_assoc]; exact h3.upd _ (by omega))
      (by rw [← Nat.add_assoc n, ← Nat.add_assoc dest]; exact hd.upd _ _) (by intro a; omega)]
    rw [List.cons_append, write_cons, show dest + (n + (i + 1)) = dest + (n + i) + 1 by omega]

theorem findEnd_eq {m : Mem} {p : Nat} {s : List Byte} (h : m.IsStr p s) :
    findEnd m p = .ok (p + s.length) := by
  induction s generalizing p with
  | nil => rw [findEnd, load_some (isStr_nil.1 h)]; simp
  | cons b s ih =>
    obtain ⟨h1, h2, h3⟩ := isStr_cons.1 h
    rw [findEnd, load_some h1]
    simp only [Res.ok_bind, ne_eq, h2, not_false_eq_true, if_true]
    rw [ih h3]; simp; omega

theorem strN_cons {m : Mem} {p n : Nat} {b : Byte} {l : List Byte} (h : StrN m p (n + 1) (b :: l)) :
    m p = some b ∧ b ≠ 0#8 ∧ StrN m (p + 1) n l := by
  obtain ⟨h1, h2, h3⟩ := h
  rw [holds_cons] at h1
  refine ⟨h1.1, h2 b (by simp), h1.2, fun c hc => h2 c (by simp [hc]), ?_⟩
  simp only [List.length_cons] at h3
  rcases h3 with h3 | ⟨h3, h4⟩
  · left; omega
  · right; refine ⟨by omega, ?_⟩
    rw [show p + 1 + l.length = p + (l.length + 1) by omega]; exact h4

theorem strN_length_le {m : Mem} {p n : Nat} {l : List Byte} (h : StrN m p n l) : l.length ≤ n := by
  have := h.2.2; omega

/-- A NUL-terminated string seen through a window of `n` bytes. -/
theorem IsStr_strN {m : Mem} {p : Nat} {s : List Byte} (h : m.IsStr p s) (n : Nat) :
    StrN m p n (s.take n) := by
  refine ⟨fun i hi => ?_, fun b hb => h.2.2 b (List.mem_of_mem_take hb), ?_⟩
  · simp only [List.length_take] at hi
    rw [List.getElem_take]; exact h.1 i (by omega)
  · by_cases hn : n ≤ s.length
    · left; simp [hn]
    · right
      refine ⟨by simp; omega, ?_⟩
      rw [List.take_of_length_le (by omega)]; exact h.2.1

theorem strN_upd {m : Mem} {p n : Nat} {l : List Byte} (h : StrN m p n l) {a : Nat} (b : Byte)
    (hd : a < p ∨ p + l.length < a ∨ (a = p + l.length ∧ l.length = n)) :
    StrN (m.upd a b) p n l := by
  refine ⟨h.1.upd b (by omega), h.2.1, ?_⟩
  rcases h.2.2 with h3 | ⟨h3, h4⟩
  · left; exact h3
  · right; exact ⟨h3, by rw [upd_ne (by omega)]; exact h4⟩

theorem strncatLoop_eq {m : Mem} {d src n : Nat} {l : List Byte} (h : StrN m src n l)
    (hd : m.Mapped d (l.length + 1)) (hdis : Disjoint d (l.length + 1) src (min n (l.length + 1))) :
    strncatLoop m d src n = .ok (m.write d (l ++ [0#8])) := by
  induction n generalizing m d src l with
  | zero =>
    have : l = [] := List.eq_nil_of_length_eq_zero (by have := strN_length_le h; omega)
    subst this
    obtain ⟨b, hb⟩ := (mapped_succ.1 hd).1
    simp [strncatLoop, store_some hb, write_singleton]
  | succ n ih =>
    cases l with
    | nil =>
      obtain ⟨b, hb⟩ := (mapped_succ.1 hd).1
      have h0 : m src = some 0#8 := by
        have := h.2.2; simp at this; exact this
      rw [strncatLoop, load_some h0]
      simp only [Res.ok_bind, store_some hb, ne_eq, not_true_eq_false, if_false]
      rw [store_some (upd_same _ _ _)]
      simp only [List.nil_append, write_singleton, Res.ok.injEq]
      funext x; unfold Mem.upd; split <;> simp_all
    | cons b l =>
      obtain ⟨h1, h2, h3⟩ := strN_cons h
      have hlen := strN_length_le h3
      rw [List.length_cons, mapped_succ] at hd
      obtain ⟨⟨c, hc⟩, hd⟩ := hd
      rw [List.length_cons] at hdis
      have hx := hdis src
      have hy := hdis d
      have hk : min (n + 1) (l.length + 1 + 1) = min n (l.length + 1) + 1 := by omega
      rw [strncatLoop, load_some h1]
      simp only [ne_eq, h2, not_false_eq_true, if_true, Res.ok_bind, store_some hc]
      rw [ih (strN_upd h3 _ (by omega)) (hd.upd _ _) (by intro a; have := hdis a; omega)]
      rw [List.cons_append, write_cons]

theorem zeroFill_eq {m : Mem} {d k : Nat} (h : m.Mapped d k) :
    zeroFill m d k = .ok (m.write d (List.replicate k 0#8)) := by
  induction k generalizing m d with
  | zero => simp [zeroFill]
  | succ k ih =>
    obtain ⟨⟨b, hb⟩, h⟩ := mapped_succ.1 h
    rw [zeroFill, store_some hb, Res.ok_bind, ih (h.upd _ _), List.replicate_succ, write_cons]

theorem strncpyLoop_eq {m : Mem} {dest src a n : Nat} {l : List Byte} (h : StrN m (src + a) n l)
    (hread : l.length = n → ∃ b, m (src + a + n) = some b)
    (hd : m.Mapped (dest + a) n) (hdis : Disjoint (dest + a) n (src + a) (min n (l.length + 1)))
    (hn : a + n < 2147483648) :
    strncpyLoop m dest src ((a + n : Nat) : Int) a =
      .ok (m.write (dest + a) (l ++ List.replicate (n - l.length) 0#8)) := by
  induction l generalizing m a n with
  | nil =>
    rcases Nat.eq_zero_or_pos n with rfl | hpos
    · obtain ⟨b, hb⟩ := hread rfl
      rw [strncpyLoop, load_some (by simpa using hb)]
      simp [zeroFill]
    · have h0 : m (src + a) = some 0#8 := by
        have := h.2.2; simp only [List.length_nil, Nat.add_zero] at this; exact (this.resolve_left (by omega)).2
      rw [strncpyLoop, load_some h0]
      simp only [Res.ok_bind, ne_eq, not_true_eq_false, if_false, List.nil_append, List.length_nil,
        Nat.sub_zero]
      rw [show (((a + n : Nat) : Int) - (a : Int)).toNat = n by omega]
      exact zeroFill_eq hd
  | cons b l ih =>
    obtain ⟨k, rfl⟩ : ∃ k, n = k + 1 := ⟨n - 1, by have := strN_length_le h; simp at this; omega⟩
    obtain ⟨h1, h2, h3⟩ := strN_cons h
    have hlen := strN_length_le h3
    rw [mapped_succ] at hd
    obtain ⟨⟨c, hc⟩, hd⟩ := hd
    rw [List.length_cons] at hdis hread
    have hx := hdis (src + a)
    have hy := hdis (dest + a)
    rw [strncpyLoop, load_some h1]
    simp only [ne_eq, h2, not_false_eq_true, if_true, Res.ok_bind, store_some hc,
      incInt_ok (show a < 2147483647 by omega)]
    rw [if_neg (by omega)]
    have := @ih (m.upd (dest + a) b) (a + 1) k
      (by rw [← Nat.add_assoc]; exact strN_upd h3 _ (by omega))
      (by
        intro hk
        obtain ⟨x, hx⟩ := hread (by omega)
        rw [show src + (a + 1) + k = src + a + (k + 1) by omega]
        unfold Mem.upd; split
        · exact ⟨_, rfl⟩
        · exact ⟨_, hx⟩)
      (by rw [← Nat.add_assoc]; exact hd.upd _ _)
      (by intro x; have := hdis x; omega) (by omega)
    rw [show a + (k + 1) = a + 1 + k by omega, this]
    rw [List.cons_append, write_cons, List.length_cons, ← Nat.add_assoc,
      Nat.add_sub_add_right]

theorem copyUntil_eq {m : Mem} {d src n : Nat} {l : List Byte} (h : StrN m src n l)
    (hread : l.length = n → ∃ b, m (src + n) = some b)
    (hd : m.Mapped d l.length) (hdis : Disjoint d l.length src (min n (l.length + 1))) :
    copyUntil m d (d + n) src = .ok (m.write d l, d + l.length) := by
  induction l generalizing m d src n with
  | nil =>
    rcases Nat.eq_zero_or_pos n with rfl | hpos
    · obtain ⟨b, hb⟩ := hread rfl
      rw [copyUntil, load_some (by simpa using hb)]
      simp
    · have h0 : m src = some 0#8 := by
        have := h.2.2; simp only [List.length_nil, Nat.add_zero] at this; exact (this.resolve_left (by omega)).2
      rw [copyUntil, load_some h0]; simp
  | cons b l ih =>
    obtain ⟨k, rfl⟩ : ∃ k, n = k + 1 := ⟨n - 1, by have := strN_length_le h; simp at this; omega⟩
    obtain ⟨h1, h2, h3⟩ := strN_cons h
    have hlen := strN_length_le h3
    rw [List.length_cons, mapped_succ] at hd
    obtain ⟨⟨c, hc⟩, hd⟩ := hd
    rw [List.length_cons] at hdis hread
    have hx := hdis src
    have hy := hdis d
    rw [copyUntil, load_some h1]
    simp only [Res.ok_bind]
    rw [if_pos ⟨h2, by omega⟩, store_some hc, Res.ok_bind, show d + (k + 1) = d + 1 + k by omega]
    rw [ih (strN_upd h3 _ (by omega)) ?_ (hd.upd _ _) (by intro x; have := hdis x; omega)]
    · rw [write_cons, List.length_cons, Nat.add_assoc, Nat.add_comm 1]
    · intro hk
      obtain ⟨x, hx⟩ := hread (by omega)
      rw [show src + 1 + k = src + (k + 1) by omega]
      unfold Mem.upd; split
      · exact ⟨_, rfl⟩
      · exact ⟨_, hx⟩

theorem strlcpyLoop_eq {m : Mem} {dest src a n : Nat} {l : List Byte} (h : StrN m (src + a) n l)
    (hd : m.Mapped (dest + a) (l.length + 1))
    (hdis : Disjoint (dest + a) (l.length + 1) (src + a) (min n (l.length + 1)))
    (hn : a + n + 1 < 2147483648) :
    strlcpyLoop m dest src ((a + (n + 1) : Nat) : Int) a = .ok (m.write (dest + a) (l ++ [0#8])) := by
  induction n generalizing m a l with
  | zero =>
    have : l = [] := List.eq_nil_of_length_eq_zero (by have := strN_length_le h; omega)
    subst this
    obtain ⟨b, hb⟩ := (mapped_succ.1 hd).1
    rw [strlcpyLoop, if_pos (by omega)]
    simp only
    rw [if_neg (by omega), show ((dest : Int) + (((a + (0 + 1) : Nat) : Int) - 1)).toNat = dest + a by omega]
    rw [store_some hb]; simp [write_singleton]
  | succ n ih =>
    cases l with
    | nil =>
      obtain ⟨b, hb⟩ := (mapped_succ.1 hd).1
      have h0 : m (src + a) = some 0#8 := by
        have := h.2.2; simp at this; exact this
      have hx := hdis (src + a)
      rw [List.length_nil] at hx
      rw [strlcpyLoop, if_neg (by omega), load_some h0, Res.ok_bind, store_some hb, Res.ok_bind,
        load_some (show m.upd (dest + a) 0#8 (src + a) = some 0#8 by
          rw [upd_ne (by omega)]; exact h0)]
      simp [write_singleton]
    | cons b l =>
      obtain ⟨h1, h2, h3⟩ := strN_cons h
      have hlen := strN_length_le h3
      rw [List.length_cons, mapped_succ] at hd
      obtain ⟨⟨c, hc⟩, hd⟩ := hd
      rw [List.length_cons] at hdis
      have hx := hdis (src + a)
      have hy := hdis (dest + a)
      rw [strlcpyLoop, if_neg (by omega), load_some h1, Res.ok_bind, store_some hc, Res.ok_bind,
        load_some (show m.upd (dest + a) b (src + a) = some b by
          rw [upd_ne (by omega)]; exact h1)]
      simp only [ne_eq, h2, not_false_eq_true, if_true, Res.ok_bind,
        incInt_ok (show a < 2147483647 by omega)]
      have := @ih (m.upd (dest + a) b) (a + 1) l
        (by rw [← Nat.add_assoc]; exact strN_upd h3 _ (by omega))
        (by rw [← Nat.add_assoc]; exact hd.upd _ _)
        (by intro x; have := hdis x; omega) (by omega)
      rw [show a + (n + 1 + 1) = a + 1 + (n + 1) by omega, this, List.cons_append, write_cons,
        ← Nat.add_assoc]

end Minilib

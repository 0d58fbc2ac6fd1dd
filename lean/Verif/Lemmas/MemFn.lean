import Verif.Model.MemFn
import Verif.Spec.Str

set_option autoImplicit false

namespace Minilib
open Mem Spec

theorem memmoveLoop_eq {m : Mem} {d s : Nat} {l : List Byte} (h : m.Holds s l)
    (hd : m.Mapped d l.length) (ho : d ≤ s ∨ s + l.length ≤ d) :
    memmoveLoop m d s l.length = .ok (m.write d l) := by
  induction l generalizing m d s with
  | nil => simp [memmoveLoop]
  | cons b l ih =>
    rw [holds_cons] at h
    obtain ⟨⟨c, hc⟩, hd⟩ := mapped_succ.1 hd
    simp only [List.length_cons] at ho
    rw [List.length_cons, memmoveLoop, load_some h.1, Res.ok_bind, store_some hc, Res.ok_bind,
      ih (h.2.upd _ (by omega)) (hd.upd _ _) (by omega), write_cons]

/-- Overwriting part of a copied prefix with the bytes that belong there extends the prefix. -/
theorem write_take_extend (m : Mem) (d k a w : Nat) (l : List Byte) (hak : a ≤ k)
    (hw : a + w ≤ l.length) :
    (m.write d (l.take k)).write (d + a) ((l.drop a).take w) = m.write d (l.take (max k (a + w))) := by
  funext x
  by_cases h1 : d ≤ x
  · obtain ⟨j, rfl⟩ : ∃ j, x = d + j := ⟨x - d, by omega⟩
    by_cases h2 : a ≤ j ∧ j < a + w
    · have e : d + j = d + a + (j - a) := by omega
      conv => lhs; rw [e]
      rw [write_inside _ _ _ _ (by simp; omega), write_inside _ _ _ _ (by simp; omega)]
      simp [show a + (j - a) = j by omega]
    · rw [write_outside _ _ _ _ (by simp; omega)]
      by_cases h3 : j < k ∧ j < l.length
      · rw [write_inside _ _ _ _ (by simp; omega), write_inside _ _ _ _ (by simp; omega)]
        simp
      · rw [write_outside _ _ _ _ (by simp; omega), write_outside _ _ _ _ (by simp; omega)]
  · rw [write_outside _ _ _ _ (by omega), write_outside _ _ _ _ (by omega),
      write_outside _ _ _ _ (by omega)]

theorem holds_slice {m : Mem} {s a w : Nat} {l : List Byte} (h : m.Holds s l)
    (hw : a + w ≤ l.length) : m.Holds (s + a) ((l.drop a).take w) := by
  intro i hi
  simp only [List.length_take, List.length_drop] at hi
  rw [Nat.add_assoc, h (a + i) (by omega)]
  simp

theorem memcpyLoop_eq {m : Mem} {d s a k : Nat} {l : List Byte} (h : m.Holds s l)
    (hd : m.Mapped d l.length) (ho : Disjoint d l.length s l.length) (hak : a ≤ k)
    (hk : k ≤ l.length) :
    memcpyLoop (m.write d (l.take k)) d s (l.length : Int) a = .ok (m.write d l) := by
  induction hn : l.length - a generalizing a k with
  | zero =>
    rw [memcpyLoop, if_neg (by omega), List.take_of_length_le (by omega)]; rfl
  | succ n ih =>
    have hh : (m.write d (l.take k)).Holds s l := by
      intro i hi
      rw [write_outside _ _ _ _ (by
        have := ho (s + i)
        simp only [List.length_take]
        omega)]
      exact h i hi
    obtain ⟨c, hc⟩ := (hd.write d (l.take k)) a (by omega)
    rw [memcpyLoop, if_pos (by omega), load_some (hh a (by omega)), Res.ok_bind, store_some hc,
      Res.ok_bind]
    have e : (m.write d (l.take k)).upd (d + a) l[a] = m.write d (l.take (max k (a + 1))) := by
      rw [← write_take_extend m d k a 1 l hak (by omega), ← write_singleton]
      congr 1
      rw [List.drop_eq_getElem_cons (by omega), List.take_succ_cons, List.take_zero]
    rw [e]
    exact ih (by omega) (by omega) (by omega)

theorem memcpyWide_eq {m : Mem} {d s a k w e : Nat} {l : List Byte} (h : m.Holds s l)
    (hd : m.Mapped d l.length) (ho : Disjoint d l.length s l.length) (hak : a ≤ k)
    (hk : k ≤ l.length) (hw : 0 < w) (he : a < e → e + w ≤ l.length + 1) :
    ∃ k', max a e ≤ k' ∧ k ≤ k' ∧ k' ≤ l.length ∧
      memcpyWide (m.write d (l.take k)) d s w (e : Int) a = .ok (m.write d (l.take k'), max a e) := by
  induction hn : e - a generalizing a k with
  | zero =>
    refine ⟨k, by omega, by omega, hk, ?_⟩
    rw [memcpyWide, if_neg (by omega), show max a e = a by omega]; rfl
  | succ n ih =>
    have hh : (m.write d (l.take k)).Holds s l := by
      intro i hi
      rw [write_outside _ _ _ _ (by
        have := ho (s + i)
        simp only [List.length_take]
        omega)]
      exact h i hi
    have he' := he (by omega)
    have hl : ((l.drop a).take w).length = w := by simp; omega
    have h1 := loadBytes_holds (holds_slice (a := a) (w := w) hh (by omega))
    have h2 := storeBytes_mapped (m := m.write d (l.take k)) (a := d + a) (l := (l.drop a).take w)
      (by
        rw [hl]
        intro i hi
        have := (hd.write d (l.take k)) (a + i) (by omega)
        rwa [← Nat.add_assoc] at this)
    rw [hl] at h1
    obtain ⟨k', e1, e2, e3, e4⟩ := @ih (a + 1) (max k (a + w)) (by omega) (by omega) (by omega)
      (by omega)
    refine ⟨k', by omega, by omega, e3, ?_⟩
    rw [memcpyWide, if_pos (by omega), h1, Res.ok_bind, h2, Res.ok_bind,
      write_take_extend m d k a w l hak (by omega), e4, show max (a + 1) e = max a e by omega]

theorem memsetLoop_eq {m : Mem} {s a n : Nat} (c : Byte) (hd : m.Mapped (s + a) n) :
    memsetLoop m s c ((a + n : Nat) : Int) a = .ok (m.write (s + a) (List.replicate n c)) := by
  induction n generalizing m a with
  | zero => rw [memsetLoop, if_neg (by omega)]; simp
  | succ n ih =>
    obtain ⟨⟨b, hb⟩, hd⟩ := mapped_succ.1 hd
    rw [memsetLoop, if_pos (by omega), store_some hb, Res.ok_bind, List.replicate_succ, write_cons]
    have := @ih (m.upd (s + a) c) (a + 1) (by rw [← Nat.add_assoc]; exact hd.upd _ _)
    rw [show a + 1 + n = a + (n + 1) by omega] at this
    rw [this, Nat.add_assoc]

theorem memchrLoop_hit {m : Mem} {p e : Nat} {l : List Byte} {c : Byte} (h : m.Holds p (l ++ [c]))
    (hl : p + l.length < e) (hc : c ∉ l) : memchrLoop m p e (c.toNat : Int) = .ok (p + l.length) := by
  induction l generalizing p with
  | nil =>
    rw [List.nil_append, holds_cons] at h
    rw [memchrLoop, if_pos (by simpa using hl), load_some h.1, Res.ok_bind, if_pos rfl]; rfl
  | cons b l ih =>
    rw [List.cons_append, holds_cons] at h
    simp only [List.length_cons] at hl
    simp only [List.mem_cons, not_or] at hc
    have hb : ¬ (b.toNat : Int) = c.toNat := fun e => hc.1 (by
      rw [← BitVec.toNat_inj]; omega)
    rw [memchrLoop, if_pos (by omega), load_some h.1, Res.ok_bind, if_neg hb, ih h.2 (by omega) hc.2]
    simp; omega

theorem memchrLoop_miss {m : Mem} {p : Nat} {l : List Byte} {c : Int} (h : m.Holds p l)
    (hc : ∀ b ∈ l, (b.toNat : Int) ≠ c) : memchrLoop m p (p + l.length) c = .ok 0 := by
  induction l generalizing p with
  | nil => rw [memchrLoop, if_neg (by simp)]; rfl
  | cons b l ih =>
    rw [holds_cons] at h
    rw [memchrLoop, if_pos (by simp), load_some h.1, Res.ok_bind, if_neg (hc b (by simp)),
      List.length_cons, show p + (l.length + 1) = p + 1 + l.length by omega,
      ih h.2 (fun x hx => hc x (by simp [hx]))]

theorem memcmpLoop_diff {m : Mem} {p q a n : Nat} {c : List Byte} {x y : Byte}
    (hp : m.Holds (p + a) (c ++ [x])) (hq : m.Holds (q + a) (c ++ [y]))
    (hn : a + c.length ≤ n) (hxy : x ≠ y ∨ a + c.length = n) :
    memcmpLoop m p q (n : Int) a = .ok (a + c.length) := by
  induction c generalizing a with
  | nil =>
    rw [List.nil_append, holds_cons] at hp hq
    by_cases h : a < n
    · rw [memcmpLoop, if_pos (by omega), load_some hp.1, Res.ok_bind, load_some hq.1, Res.ok_bind,
        if_neg (hxy.resolve_right (by simp; omega))]; rfl
    · rw [memcmpLoop, if_neg (by omega)]; rfl
  | cons b c ih =>
    rw [List.cons_append, holds_cons] at hp hq
    simp only [List.length_cons] at hn hxy
    rw [memcmpLoop, if_pos (by omega), load_some hp.1, Res.ok_bind, load_some hq.1, Res.ok_bind,
      if_pos rfl, ih (a := a + 1) hp.2 hq.2 (by omega) (by
        rcases hxy with h | h
        · exact Or.inl h
        · right; omega)]
    simp; omega

/-- Two lists of the same non-zero length split at the first difference or at the last element. -/
theorem split_diff (a b : List Byte) (hl : a.length = b.length) (hne : a ≠ []) :
    ∃ c x y a' b', a = c ++ x :: a' ∧ b = c ++ y :: b' ∧ (x ≠ y ∨ (x = y ∧ a' = [] ∧ b' = [])) := by
  induction a generalizing b with
  | nil => exact absurd rfl hne
  | cons x a ih =>
    cases b with
    | nil => simp at hl
    | cons y b =>
      by_cases hxy : x = y
      · subst hxy
        by_cases ha : a = []
        · subst ha
          have : b = [] := List.eq_nil_of_length_eq_zero (by simpa using hl.symm)
          subst this
          exact ⟨[], x, x, [], [], rfl, rfl, Or.inr ⟨rfl, rfl, rfl⟩⟩
        · obtain ⟨c, u, v, a', b', e1, e2, e3⟩ := ih b (by simpa using hl) ha
          exact ⟨x :: c, u, v, a', b', by simp [e1], by simp [e2], e3⟩
      · exact ⟨[], x, y, a, b, rfl, rfl, Or.inl hxy⟩

theorem holds_prefix {m : Mem} {p : Nat} {c a' : List Byte} {x : Byte}
    (h : m.Holds p (c ++ x :: a')) : m.Holds p (c ++ [x]) := by
  rw [show c ++ x :: a' = (c ++ [x]) ++ a' by simp, holds_append] at h
  exact h.1

end Minilib

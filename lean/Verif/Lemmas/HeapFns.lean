import Verif.Lemmas.Heap
import Verif.Lemmas.Str
/-
Lemmas about calloc, realloc, strdup and strndup.
-/

set_option autoImplicit false

namespace Minilib
open Mem

theorem callocClear_eq {m : Mem} {p n : Nat} (h : m.Mapped p n) :
    callocClear m (p : Int) ((p : Int) + n) = .ok (m.write p (List.replicate n 0#8)) := by
  induction n generalizing m p with
  | zero => rw [callocClear, if_neg (by omega)]; simp
  | succ n ih =>
    obtain ⟨⟨b, hb⟩, hm⟩ := mapped_succ.1 h
    rw [callocClear, if_pos (by omega), if_neg (by omega)]
    rw [Int.toNat_natCast, store_some hb, Res.ok_bind]
    have := ih (hm.upd p 0#8)
    rw [show ((p : Int) + 1) = ((p + 1 : Nat) : Int) by omega,
      show ((p : Int) + ((n + 1 : Nat) : Int)) = ((p + 1 : Nat) : Int) + n by omega]
    simp only
    rw [this,
      List.replicate_succ, write_cons]

theorem word_of_bytes {l : List Byte} (h : l.length = 4) : ∃ w, wordBytes w = l := by
  match l, h with
  | [a, b, c, d], _ => exact ⟨_, wordBytes_append a b c d⟩

theorem reallocCopy_eq {m : Mem} {d s k last : Nat} {l : List Byte} (hl : l.length = 4 * k)
    (hs : m.Holds s l) (hd : m.Mapped d (4 * k)) (h1 : d + 4 * k ≤ last + 4) (h2 : last < d + 4 * k)
    (hdis : d + 4 * k ≤ s ∨ s + 4 * k ≤ d) :
    reallocCopy m (d : Int) (s : Int) (last : Int) = .ok (m.write d l) := by
  induction k generalizing m d s l with
  | zero =>
    rw [reallocCopy, if_neg (by omega)]
    have : l = [] := List.length_eq_zero_iff.1 (by omega)
    simp [this]
  | succ k ih =>
    obtain ⟨w, hw⟩ := word_of_bytes (l := l.take 4) (by simp; omega)
    have hsplit : l = wordBytes w ++ l.drop 4 := by rw [hw, List.take_append_drop]
    rw [hsplit] at hs ⊢
    obtain ⟨hs1, hs2⟩ := holds_append.1 hs
    rw [length_wordBytes] at hs2
    have hdl : (l.drop 4).length = 4 * k := by simp; omega
    rw [reallocCopy]
    by_cases hlast : (d : Int) ≤ (last : Int)
    · rw [if_pos hlast, loadW_eq hs1, Res.ok_bind, storeW_eq _ (hd.mono (by omega)), Res.ok_bind,
        write_append, length_wordBytes]
      have hd' : (m.write d (wordBytes w)).Mapped (d + 4) (4 * k) := by
        apply Mapped.write
        intro i hi
        have := hd (4 + i) (by omega)
        rwa [← Nat.add_assoc] at this
      have hs' : (m.write d (wordBytes w)).Holds (s + 4) (l.drop 4) :=
        hs2.write (by simp [hdl]; omega)
      by_cases hk : k = 0
      · subst hk
        have : l.drop 4 = [] := List.length_eq_zero_iff.1 (by omega)
        rw [this, reallocCopy, if_neg (by omega)]
        simp
      · have := ih hdl hs' hd' (by omega) (by omega) (by omega)
        rw [show (d : Int) + 4 = ((d + 4 : Nat) : Int) by omega,
          show (s : Int) + 4 = ((s + 4 : Nat) : Int) by omega, this]
    · omega

end Minilib

import Verif.Model.Streams
import Verif.Spec.Streams
import Mathlib.Data.List.Perm.Subperm
/-
Property C43: the table of streams.
-/

set_option autoImplicit false

namespace Minilib
open Spec

/-- Histories of opening and closing streams, with the slots open now.  The standard streams occupy the slots 0, 1, 2. -/
inductive _root_.Spec.StreamHist : Table → List Nat → Prop
  | init : StreamHist Table.init [2, 1, 0]
  | opened {t t' o a ans} : StreamHist t o → openStream t ans = .ok (t', some a) → StreamHist t' (a :: o)
  | failed {t t' o ans} : StreamHist t o → openStream t ans = .ok (t', none) → StreamHist t' o
  | closed {t t' o i fd} : StreamHist t o → i ∈ o → fclose t i = .ok (t', fd) → StreamHist t' (o.erase i)

/-- C43 in full: opening never hands out a slot in use, and neither opening nor closing touches another open stream or
memory outside of the table. -/
def C43_full : Prop := ∀ t o, StreamHist t o →
  (∀ ans, ∃ t' r, openStream t ans = .ok (t', r) ∧ ∀ a, r = some a → a ∉ o) ∧
  (∀ i ∈ o, ∃ t' fd, fclose t i = .ok (t', fd))

/-- One of the steps of a history, computed. -/
def histStep (s : Table × List Nat) : Option Nat ⊕ BitVec 32 → Option (Table × List Nat)
  | .inl (some i) =>
    if i ∈ s.2 then
      match fclose s.1 i with
      | .ok (t, _) => some (t, s.2.erase i)
      | _ => none
    else none
  | .inl none => some s
  | .inr ans =>
    match openStream s.1 ans with
    | .ok (t, some a) => some (t, a :: s.2)
    | .ok (t, none) => some (t, s.2)
    | _ => none

def histRun (s : Table × List Nat) : List (Option Nat ⊕ BitVec 32) → Option (Table × List Nat)
  | [] => some s
  | op :: ops => (histStep s op).bind (fun s => histRun s ops)

theorem histRun_hist : ∀ (ops : List (Option Nat ⊕ BitVec 32)) (s s' : Table × List Nat), StreamHist s.1 s.2 →
    histRun s ops = some s' → StreamHist s'.1 s'.2
  | [], s, s', h, e => by cases e; exact h
  | op :: ops, s, s', h, e => by
    simp only [histRun, Option.bind_eq_some_iff] at e
    obtain ⟨s1, e1, e2⟩ := e
    refine histRun_hist ops s1 s' ?_ e2
    cases op with
    | inl x =>
      cases x with
      | none => simp only [histStep, Option.some.injEq] at e1; subst e1; exact h
      | some i =>
        simp only [histStep] at e1
        split at e1
        · rename_i hi
          split at e1
          · rename_i t fd he
            cases e1
            exact .closed h hi he
          · cases e1
        · cases e1
    | inr ans =>
      simp only [histStep] at e1
      split at e1
      · rename_i t a he; cases e1; exact .opened h he
      · rename_i t he; cases e1; exact .failed h he
      · cases e1

/-- C43 fails: open four streams (slots 3 to 6), close 6, 4 and 3, open three: the third one gets slot 5, which is still
open. -/
theorem C43_reuse_refuted : ¬ C43_full := by
  intro h
  have hr : histRun (Table.init, [2, 1, 0]) [.inr 3#32, .inr 4#32, .inr 5#32, .inr 6#32, .inl (some 6), .inl (some 4), .inl (some 3),
      .inr 6#32, .inr 7#32] = some (⟨[0#32, 1#32, 2#32, 6#32, 7#32, 5#32, 0xffffffff#32] ++ List.replicate 9 0#32, 5⟩, [4, 3, 5, 2, 1, 0]) := by
    decide +kernel
  have hh := histRun_hist _ _ _ .init hr
  obtain ⟨t', r, h1, h2⟩ := (h _ _ hh).1 8#32
  have h3 : openStream ⟨[0#32, 1#32, 2#32, 6#32, 7#32, 5#32, 0xffffffff#32] ++ List.replicate 9 0#32, 5⟩ 8#32
      = .ok (⟨[0#32, 1#32, 2#32, 6#32, 7#32, 8#32, 0xffffffff#32] ++ List.replicate 9 0#32, 6⟩, some 5) := rfl
  rw [h3] at h1
  cases h1
  exact absurd (h2 5 rfl) (by decide)

/-- C43 fails: with all 16 slots in use `fopen` reads behind the table … -/
theorem C43_overrun_refuted : ¬ C43_full := by
  intro h
  have hr : histRun (Table.init, [2, 1, 0]) ((List.range 13).map (fun i => .inr (BitVec.ofNat 32 (i + 3))))
      = some (⟨(List.range 16).map (fun i => BitVec.ofNat 32 i), 16⟩, (List.range 16).reverse) := by decide +kernel
  have hh := histRun_hist _ _ _ .init hr
  obtain ⟨t', r, h1, h2⟩ := (h _ _ hh).1 16#32
  have h3 : openStream ⟨(List.range 16).map (fun i => BitVec.ofNat 32 i), 16⟩ 16#32 = .ub := rfl
  rw [h3] at h1
  cases h1

/-- … and so does `fclose` of any stream. -/
theorem C43_close_refuted : ¬ C43_full := by
  intro h
  have hr : histRun (Table.init, [2, 1, 0]) ((List.range 13).map (fun i => .inr (BitVec.ofNat 32 (i + 3))))
      = some (⟨(List.range 16).map (fun i => BitVec.ofNat 32 i), 16⟩, (List.range 16).reverse) := by decide +kernel
  have hh := histRun_hist _ _ _ .init hr
  obtain ⟨t', fd, h1⟩ := (h _ _ hh).2 5 (by decide)
  have h3 : fclose ⟨(List.range 16).map (fun i => BitVec.ofNat 32 i), 16⟩ 5 = .ub := rfl
  rw [h3] at h1
  cases h1

/-- C43, with characters pushed back: a stream open stays so after an `ungetc`. -/
def C43_unget_full : Prop := ∀ t o, StreamHist t o → ∀ i ∈ o, ∀ (c : BitVec 32) (s : Input) (ans : BitVec 32) (t' : Table) (a : Nat),
  openStream ⟨t.cells.set i (ungetc c ⟨t.cells.getD i 0#32, s⟩).2.cell, t.pstream⟩ ans = .ok (t', some a) → a ∉ o

/-- It fails: after `ungetc` of a byte from 128 on the cell is negative, which is the mark of a free one; with all slots
handed out the next `fopen` takes it. -/
theorem C43_unget_refuted : ¬ C43_unget_full := by
  intro h
  have hr : histRun (Table.init, [2, 1, 0]) ((List.range 13).map (fun i => .inr (BitVec.ofNat 32 (i + 3))))
      = some (⟨(List.range 16).map (fun i => BitVec.ofNat 32 i), 16⟩, (List.range 16).reverse) := by decide +kernel
  have hh := histRun_hist _ _ _ .init hr
  exact absurd (h _ _ hh 5 (by decide) 200#32 ⟨[], 0⟩ 16#32 _ 5 rfl) (by decide)

/-! ### The histories for which it holds -/

/-- The cell of a slot. -/
def Table.cell (t : Table) (i : Nat) : BitVec 32 := t.cells.getD i 0#32

theorem get_cell {t : Table} {i : Nat} (h : i < t.cells.length) : t.get i = .ok (t.cell i) := by
  unfold Table.get Table.cell
  rw [List.getD_eq_getElem?_getD, List.getElem?_eq_getElem h]
  rfl

theorem cell_set {l : List (BitVec 32)} {a p q i : Nat} {x : BitVec 32} (h : a < l.length) :
    (Table.mk (l.set a x) p).cell i = if i = a then x else (Table.mk l q).cell i := by
  unfold Table.cell
  simp only [List.getD_eq_getElem?_getD, List.getElem?_set]
  by_cases e : a = i
  · subst e; simp [h]
  · rw [if_neg e, if_neg (fun e' => e e'.symm)]

/-- Histories in which a stream is closed only while the last slot was not handed out, and while it is the highest one
open or the slot after it is open, too; and in which a stream is opened only if a slot is free. -/
inductive _root_.Spec.OrderlyHist : Table → List Nat → Prop
  | init : OrderlyHist Table.init [2, 1, 0]
  | opened {t t' o a ans} : OrderlyHist t o → o.length < 16 → 0 < ans.toInt → openStream t ans = .ok (t', some a) →
      OrderlyHist t' (a :: o)
  | failed {t t' o ans} : OrderlyHist t o → o.length < 16 → ans.toInt < 0 → openStream t ans = .ok (t', none) → OrderlyHist t' o
  | closed {t t' o i fd} : OrderlyHist t o → i ∈ o → 3 ≤ i → ((∀ j ∈ o, j ≤ i) ∨ i + 1 ∈ o) → t.pstream < 16 →
      fclose t i = .ok (t', fd) → OrderlyHist t' (o.erase i)

/-- What holds in all of them. -/
structure TableInv (t : Table) (o : List Nat) : Prop where
  len : t.cells.length = 16
  lo : 3 ≤ t.pstream
  hi : t.pstream ≤ 16
  std : 0 ∈ o ∧ 1 ∈ o ∧ 2 ∈ o
  std2 : t.cell 2 = 2#32
  nodup : o.Nodup
  below : ∀ i ∈ o, i < t.pstream
  isOpen : ∀ i ∈ o, 3 ≤ i → 0 < (t.cell i).toInt
  isFree : ∀ i, 3 ≤ i → i < 16 → i ∉ o → (t.cell i).toInt ≤ 0
  used : ∀ i, 3 ≤ i → i < t.pstream → i ∉ o → (t.cell i).toInt < 0

theorem findFree_eq {t : Table} (hl : t.cells.length = 16) (n : Nat) : ∀ a, a + n = 16 →
    (∃ i, a ≤ i ∧ i < 16 ∧ (t.cell i).toInt < 0) →
    ∃ b, findFree t a n = .ok (some b) ∧ a ≤ b ∧ b < 16 ∧ (t.cell b).toInt < 0 := by
  induction n with
  | zero => rintro a ha ⟨i, h1, h2, _⟩; omega
  | succ n ih =>
    rintro a ha ⟨i, h1, h2, h3⟩
    rw [findFree, get_cell (by omega)]
    simp only [Res.ok_bind]
    by_cases hc : 0 ≤ (t.cell a).toInt
    · rw [if_pos hc]
      obtain ⟨b, r1, r2, r3, r4⟩ := ih (a + 1) (by omega) ⟨i, by
        rcases Nat.lt_or_ge a i with h | h
        · omega
        · have : i = a := by omega
          subst this; omega, h2, h3⟩
      exact ⟨b, r1, by omega, r3, r4⟩
    · rw [if_neg hc]
      exact ⟨a, rfl, Nat.le_refl _, by omega, by omega⟩

theorem exists_free {o : List Nat} (hn : o.Nodup) (hlen : o.length < 16) : ∃ i, i < 16 ∧ i ∉ o := by
  apply Classical.byContradiction
  intro h
  have h' : ∀ i, i < 16 → i ∈ o := fun i hi => Classical.byContradiction (fun hc => h ⟨i, hi, hc⟩)
  have hsub : List.range 16 ⊆ o := fun i hi => h' i (List.mem_range.1 hi)
  have := (List.subperm_of_subset List.nodup_range hsub).length_le
  simp at this
  omega

/-- Opening under the invariant. -/
theorem openStream_inv {t : Table} {o : List Nat} (I : TableInv t o) (hlen : o.length < 16) (ans : BitVec 32) :
    ∃ a p, openStream t ans = .ok (⟨t.cells.set a ans, p⟩, if ans.toInt < 0 then none else some a) ∧ 3 ≤ a ∧ a < 16 ∧ a ∉ o ∧
      t.pstream ≤ p ∧ p ≤ 16 ∧ a < p ∧ (∀ i, i < p → i < t.pstream ∨ i = a) := by
  by_cases hp : t.pstream ≥ 16
  · obtain ⟨i, hi, hio⟩ := exists_free I.nodup hlen
    have h3 : 3 ≤ i := by
      rcases Nat.lt_or_ge i 3 with h | h
      · have : i = 0 ∨ i = 1 ∨ i = 2 := by omega
        rcases this with rfl | rfl | rfl
        · exact absurd I.std.1 hio
        · exact absurd I.std.2.1 hio
        · exact absurd I.std.2.2 hio
      · exact h
    have hpe : t.pstream = 16 := by have := I.hi; omega
    obtain ⟨b, r1, r2, r3, r4⟩ := findFree_eq I.len 13 3 (by omega) ⟨i, h3, hi, I.used i h3 (by omega) hio⟩
    refine ⟨b, t.pstream, ?_, r2, r3, ?_, Nat.le_refl _, I.hi, by omega, fun i hi => Or.inl hi⟩
    · unfold openStream newCell
      rw [if_pos hp, r1]
      rfl
    · intro hb
      have := I.isOpen b hb r2
      omega
  · refine ⟨t.pstream, t.pstream + 1, ?_, I.lo, by omega, ?_, by omega, by omega, by omega, fun i hi => by omega⟩
    · unfold openStream newCell
      rw [if_neg hp]
      rfl
    · intro h
      exact absurd (I.below _ h) (by omega)

theorem open_inv {t : Table} {o : List Nat} (I : TableInv t o) {a p : Nat} {ans : BitVec 32} (h3 : 3 ≤ a) (ha : a < 16) (hao : a ∉ o)
    (hp1 : t.pstream ≤ p) (hp2 : p ≤ 16) (hp3 : a < p) (hp4 : ∀ i, i < p → i < t.pstream ∨ i = a) :
    (0 < ans.toInt → TableInv ⟨t.cells.set a ans, p⟩ (a :: o)) ∧ (ans.toInt < 0 → TableInv ⟨t.cells.set a ans, p⟩ o) := by
  have hla : a < t.cells.length := by rw [I.len]; exact ha
  have hc : ∀ i, (Table.mk (t.cells.set a ans) p).cell i = if i = a then ans else t.cell i := fun i => cell_set hla
  have hlo := I.lo
  constructor
  · intro hpos
    refine ⟨by simp [I.len], by simp only; omega, hp2, ⟨by simp [I.std.1], by simp [I.std.2.1], by simp [I.std.2.2]⟩, ?_,
      List.nodup_cons.2 ⟨hao, I.nodup⟩, ?_, ?_, ?_, ?_⟩
    · rw [hc, if_neg (by omega)]; exact I.std2
    · intro i hi
      rcases List.mem_cons.1 hi with rfl | hi
      · exact hp3
      · exact Nat.lt_of_lt_of_le (I.below i hi) hp1
    · intro i hi hi3
      rw [hc]
      split
      · exact hpos
      · rename_i hne
        exact I.isOpen i ((List.mem_cons.1 hi).resolve_left hne) hi3
    · intro i hi3 hi hio
      simp only [List.mem_cons, not_or] at hio
      rw [hc, if_neg hio.1]
      exact I.isFree i hi3 hi hio.2
    · intro i hi3 hi hio
      simp only [List.mem_cons, not_or] at hio
      rw [hc, if_neg hio.1]
      exact I.used i hi3 ((hp4 i hi).resolve_right hio.1) hio.2
  · intro hneg
    refine ⟨by simp [I.len], by simp only; omega, hp2, I.std, ?_, I.nodup, ?_, ?_, ?_, ?_⟩
    · rw [hc, if_neg (by omega)]; exact I.std2
    · intro i hi
      exact Nat.lt_of_lt_of_le (I.below i hi) hp1
    · intro i hi hi3
      rw [hc, if_neg (by rintro rfl; exact hao hi)]
      exact I.isOpen i hi hi3
    · intro i hi3 hi hio
      rw [hc]
      split
      · omega
      · exact I.isFree i hi3 hi hio
    · intro i hi3 hi hio
      rw [hc]
      split
      · exact hneg
      · rename_i hne
        exact I.used i hi3 ((hp4 i hi).resolve_right hne) hio

theorem trim_eq {t : Table} (hl : t.cells.length = 16) (h2 : t.cell 2 = 2#32) (p : Nat) : 3 ≤ p → p ≤ 16 →
    ∃ q, trimCells t p = .ok q ∧ 3 ≤ q ∧ q ≤ p ∧ ∀ i, q ≤ i → i < p → t.cell i = 0xffffffff#32 := by
  induction p with
  | zero => intro h _; omega
  | succ p ih =>
    intro h h16
    rw [trimCells, get_cell (by omega)]
    simp only [Res.ok_bind]
    by_cases hc : t.cell p = 0xffffffff#32
    · rw [if_pos hc]
      have : p ≠ 2 := by rintro rfl; rw [h2] at hc; exact absurd hc (by decide)
      obtain ⟨q, r1, r2, r3, r4⟩ := ih (by omega) (by omega)
      refine ⟨q, r1, r2, by omega, fun i hi1 hi2 => ?_⟩
      by_cases hip : i = p
      · rw [hip]; exact hc
      · exact r4 i hi1 (by omega)
    · rw [if_neg hc]
      exact ⟨p + 1, rfl, h, Nat.le_refl _, fun i h1 h2 => by omega⟩

/-- Closing under the invariant. -/
theorem fclose_inv {t : Table} {o : List Nat} (I : TableInv t o) {i : Nat} (hi : i ∈ o) (h3 : 3 ≤ i)
    (hd : (∀ j ∈ o, j ≤ i) ∨ i + 1 ∈ o) (hp : t.pstream < 16) :
    ∃ p, fclose t i = .ok (⟨t.cells.set i 0xffffffff#32, p⟩, fileno (t.cell i)) ∧
      TableInv ⟨t.cells.set i 0xffffffff#32, p⟩ (o.erase i) := by
  have hip := I.below i hi
  have hli : i < t.cells.length := by rw [I.len]; omega
  have hc : ∀ p j, (Table.mk (t.cells.set i 0xffffffff#32) p).cell j = if j = i then 0xffffffff#32 else t.cell j :=
    fun p j => cell_set hli
  have hne : ∀ j, j ∈ o.erase i ↔ j ≠ i ∧ j ∈ o := fun j => I.nodup.mem_erase_iff
  have hnp : t.pstream ∉ o := fun h => absurd (I.below _ h) (by omega)
  have neg1 : (0xffffffff#32).toInt = -1 := by decide
  -- the invariant for every new value of `pstream` above which all slots are free
  have key : ∀ q, 3 ≤ q → q ≤ t.pstream → (∀ j, q ≤ j → j < t.pstream → j ∉ o.erase i) →
      TableInv ⟨t.cells.set i 0xffffffff#32, q⟩ (o.erase i) := by
    intro q hq1 hq2 hq3
    refine ⟨by simp [I.len], hq1, by simp only; omega, ?_, ?_, I.nodup.erase i, ?_, ?_, ?_, ?_⟩
    · rw [hne, hne, hne]
      exact ⟨⟨by omega, I.std.1⟩, ⟨by omega, I.std.2.1⟩, ⟨by omega, I.std.2.2⟩⟩
    · rw [hc, if_neg (by omega)]; exact I.std2
    · intro j hj
      rcases Nat.lt_or_ge j q with h | h
      · exact h
      · exact absurd hj (hq3 j h (I.below j ((hne j).1 hj).2))
    · intro j hj hj3
      rw [hc, if_neg ((hne j).1 hj).1]
      exact I.isOpen j ((hne j).1 hj).2 hj3
    · intro j hj3 hj hjo
      rw [hc]
      split
      · rw [neg1]; decide
      · rename_i hji
        exact I.isFree j hj3 hj (fun h => hjo ((hne j).2 ⟨hji, h⟩))
    · intro j hj3 hj hjo
      rw [hc]
      split
      · rw [neg1]; decide
      · rename_i hji
        exact I.used j hj3 (Nat.lt_of_lt_of_le hj hq2) (fun h => hjo ((hne j).2 ⟨hji, h⟩))
  have hl' : ∀ q, (Table.mk (t.cells.set i 0xffffffff#32) q).cells.length = 16 := fun q => by simp [I.len]
  have hlo := I.lo
  unfold fclose
  rw [get_cell hli]
  simp only [Res.ok_bind]
  rw [get_cell (by rw [hl']; omega), get_cell (by rw [hl']; omega)]
  simp only [Res.ok_bind]
  by_cases he : (Table.mk (t.cells.set i 0xffffffff#32) t.pstream).cell (i + 1)
      = (Table.mk (t.cells.set i 0xffffffff#32) t.pstream).cell t.pstream
  · rw [if_pos he]
    have htop : ∀ j ∈ o, j ≤ i := by
      rcases hd with h | h
      · exact h
      · exfalso
        rw [hc, hc, if_neg (by omega), if_neg (by omega)] at he
        have h1 := I.isOpen (i + 1) h (by omega)
        have h2 := I.isFree t.pstream I.lo hp hnp
        rw [he] at h1
        omega
    obtain ⟨p, hpe⟩ : ∃ p, t.pstream = p + 1 := ⟨t.pstream - 1, by omega⟩
    rw [hpe]
    simp only
    obtain ⟨q, r1, r2, r3, r4⟩ := trim_eq (t := ⟨t.cells.set i 0xffffffff#32, p + 1⟩) (hl' _)
      (by rw [hc, if_neg (by omega)]; exact I.std2) p (by omega) (by omega)
    rw [r1]
    refine ⟨q, rfl, key q r2 (by omega) ?_⟩
    intro j hj1 hj2 hjo
    obtain ⟨hji, hjo⟩ := (hne j).1 hjo
    have := htop j hjo
    have hj3 : j < p := by omega
    have h4 := r4 j hj1 hj3
    rw [hc, if_neg hji] at h4
    have h5 := I.isOpen j hjo (by omega)
    rw [h4, neg1] at h5
    omega
  · rw [if_neg he]
    exact ⟨t.pstream, rfl, key _ I.lo (Nat.le_refl _) (fun j h1 h2 => by omega)⟩

theorem orderly_inv {t : Table} {o : List Nat} (h : OrderlyHist t o) : TableInv t o := by
  induction h with
  | init =>
    refine ⟨rfl, by decide, by decide, by decide, rfl, by decide, by decide, ?_, ?_, ?_⟩
    · intro i hi h3
      simp only [List.mem_cons, List.not_mem_nil, or_false] at hi
      omega
    · intro i _ hi _
      exact (by decide : ∀ i < 16, 3 ≤ i → (Table.init.cell i).toInt ≤ 0) i hi (by assumption)
    · intro i h3 hi
      simp only [Table.init] at hi
      omega
  | @opened t t' o a ans _ hlen hpos he I =>
    obtain ⟨b, p, r1, r2, r3, r4, r5, r6, r7, r8⟩ := openStream_inv I hlen ans
    rw [r1, if_neg (by omega)] at he
    simp only [Res.ok.injEq, Prod.mk.injEq, Option.some.injEq] at he
    obtain ⟨rfl, rfl⟩ := he
    exact (open_inv I r2 r3 r4 r5 r6 r7 r8).1 hpos
  | @failed t t' o ans _ hlen hneg he I =>
    obtain ⟨b, p, r1, r2, r3, r4, r5, r6, r7, r8⟩ := openStream_inv I hlen ans
    rw [r1, if_pos hneg] at he
    simp only [Res.ok.injEq, Prod.mk.injEq, and_true] at he
    subst he
    exact (open_inv I r2 r3 r4 r5 r6 r7 r8).2 hneg
  | @closed t t' o i fd _ hi h3 hd hp he I =>
    obtain ⟨p, r1, r2⟩ := fclose_inv I hi h3 hd hp
    rw [r1] at he
    simp only [Res.ok.injEq, Prod.mk.injEq] at he
    rw [← he.1]
    exact r2

/-- C43 (partial: only for orderly histories, see `OrderlyHist`): after any such history the slots handed out are pairwise
different and at most 16.  While a slot is free, opening succeeds whenever `open` does, hands out a slot from 3 to 15
that is not in use, and leaves all others alone; closing hands the descriptor of exactly that stream to `close` and
leaves all others alone. -/
theorem C43_orderly_partial {t : Table} {o : List Nat} (h : OrderlyHist t o) :
    (o.Nodup ∧ o.length ≤ 16 ∧ ∀ i ∈ o, i < 16) ∧
    (o.length < 16 → ∀ ans, ∃ t' a, openStream t ans = .ok (t', if ans.toInt < 0 then none else some a) ∧
      3 ≤ a ∧ a < 16 ∧ a ∉ o ∧ t'.cell a = ans ∧ ∀ i, i ≠ a → t'.cell i = t.cell i) ∧
    (∀ i ∈ o, 3 ≤ i → ((∀ j ∈ o, j ≤ i) ∨ i + 1 ∈ o) → t.pstream < 16 →
      ∃ t', fclose t i = .ok (t', fileno (t.cell i)) ∧ (t'.cell i).toInt < 0 ∧ ∀ j, j ≠ i → t'.cell j = t.cell j) := by
  have I := orderly_inv h
  have hlt : ∀ i ∈ o, i < 16 := fun i hi => Nat.lt_of_lt_of_le (I.below i hi) I.hi
  refine ⟨⟨I.nodup, ?_, hlt⟩, ?_, ?_⟩
  · have hsub : o ⊆ List.range 16 := fun i hi => List.mem_range.2 (hlt i hi)
    have := (List.subperm_of_subset I.nodup hsub).length_le
    simpa using this
  · intro hlen ans
    obtain ⟨a, p, r1, r2, r3, r4, _⟩ := openStream_inv I hlen ans
    have hla : a < t.cells.length := by rw [I.len]; exact r3
    refine ⟨_, a, r1, r2, r3, r4, ?_, ?_⟩
    · rw [cell_set (q := t.pstream) hla, if_pos rfl]
    · intro i hi
      rw [cell_set (q := t.pstream) hla, if_neg hi]
  · intro i hi h3 hd hp
    obtain ⟨p, r1, _⟩ := fclose_inv I hi h3 hd hp
    have hli : i < t.cells.length := by rw [I.len]; exact hlt i hi
    refine ⟨_, r1, ?_, ?_⟩
    · rw [cell_set (q := t.pstream) hli, if_pos rfl]; decide
    · intro j hj
      rw [cell_set (q := t.pstream) hli, if_neg hj]

/-- Open two streams, close the second and then the first: an orderly history, and the next one opened gets slot 3. -/
example : ∃ t, OrderlyHist t [2, 1, 0] ∧ ∃ t', openStream t 3#32 = .ok (t', some 3) := by
  have h1 : OrderlyHist _ _ := .opened (ans := 3#32) .init (by decide) (by decide) (show openStream Table.init 3#32 = .ok (_, some 3) from rfl)
  have h2 : OrderlyHist _ _ := .opened (ans := 4#32) h1 (by decide) (by decide) (show openStream _ 4#32 = .ok (_, some 4) from rfl)
  have h3 : OrderlyHist _ _ := .closed (i := 4) h2 (by decide) (by decide) (Or.inl (by decide)) (by decide) (by rfl)
  have h4 : OrderlyHist _ _ := .closed (i := 3) h3 (by decide) (by decide) (Or.inl (by decide)) (by decide) (by rfl)
  exact ⟨_, h4, _, rfl⟩

end Minilib

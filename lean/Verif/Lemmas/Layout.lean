import Verif.Model.Layout
import Verif.Spec.Abi
import Verif.Lemmas.Group
/-
Lemmas on members of structures in memory (Props/Layout).
-/

set_option autoImplicit false

namespace Minilib

/-- The path of an item as path to a member. -/
def toSel : Spec.Step → Sel
  | .f x => .f x
  | .i n => .i n

theorem toSel_inj {a b : Spec.Step} (h : toSel a = toSel b) : a = b := by
  cases a <;> cases b <;> simp_all [toSel]

theorem le_eq (n v : Nat) : Spec.le n v = natBytes n v := by
  induction n generalizing v with
  | zero => rfl
  | succ n ih => simp [Spec.le, natBytes, ih]

theorem bytesNat_lt (l : List Byte) : bytesNat l < 256 ^ l.length := by
  induction l with
  | nil => simp [bytesNat]
  | cons b l ih =>
    have := b.isLt
    simp only [bytesNat, List.length_cons, Nat.pow_succ]
    omega

theorem natBytes_mod (k v : Nat) : natBytes k (v % 256 ^ k) = natBytes k v := by
  induction k generalizing v with
  | zero => rfl
  | succ k ih =>
    simp only [natBytes, List.cons.injEq]
    constructor
    · apply BitVec.eq_of_toNat_eq
      simp only [BitVec.toNat_ofNat, Nat.pow_succ]
      rw [Nat.mul_comm]
      exact Nat.mod_mul_right_mod _ _ _
    · rw [← ih (v / 256)]
      congr 1
      rw [Nat.pow_succ, Nat.mul_comm, Nat.mod_mul_right_div_self]

/-- An item of whole bytes is read. -/
theorem getMember_eq {d : CDecl} {p : Nat} {π : List Sel} {m : Mem} {l : Leaf} {off k v : Nat} (hl : d.leaf? π = some l) (ho : l.off = 8 * off)
    (hw : l.width = 8 * k) (h : m.Holds (p + off) (natBytes k v)) : getMember d p π m = .ok (v % 256 ^ k) := by
  have hb : l.bytes = (off, k) := by
    simp only [Leaf.bytes, ho, hw, Prod.mk.injEq]
    omega
  have := Mem.loadBytes_holds h
  rw [length_natBytes] at this
  simp only [getMember, hl, hb, this, Res.ok_bind, bytesNat_natBytes]
  have h0 : l.off % 8 = 0 := by omega
  rw [h0, hw, Nat.pow_mul]
  simp [pure]

/-- An item of whole bytes is stored. -/
theorem setMember_eq {d : CDecl} {p : Nat} {π : List Sel} {m : Mem} {l : Leaf} {off k v x : Nat} (hl : d.leaf? π = some l) (ho : l.off = 8 * off)
    (hw : l.width = 8 * k) (h : m.Holds (p + off) (natBytes k v)) : setMember d p π x m = .ok (m.write (p + off) (natBytes k x)) := by
  have hb : l.bytes = (off, k) := by
    simp only [Leaf.bytes, ho, hw, Prod.mk.injEq]
    omega
  have hL := Mem.loadBytes_holds h
  rw [length_natBytes] at hL
  simp only [setMember, hl, hb, hL, Res.ok_bind, bytesNat_natBytes]
  have h0 : l.off % 8 = 0 := by omega
  rw [h0, hw, Nat.pow_mul]
  have h2 : v % 256 ^ k / 2 ^ (0 + 8 * k) = 0 := by
    rw [Nat.zero_add, Nat.pow_mul]
    exact Nat.div_eq_of_lt (Nat.mod_lt _ (Nat.pow_pos (by omega)))
  rw [h2]
  simp only [Nat.pow_zero, Nat.mod_one, Nat.one_mul, Nat.zero_add, Nat.mul_zero, Nat.add_zero]
  rw [show (2 ^ 8 : Nat) = 256 from rfl, natBytes_mod]
  apply Mem.storeBytes_mapped
  rw [length_natBytes]
  have := h.mapped
  rwa [length_natBytes] at this

/-! ### Layout of arbitrary declarations -/

mutual
/-- A type that can be declared: scalars of 1, 2, 4, 8 or 16 bytes, bit-fields not wider than their type. -/
def CDecl.WF : CDecl → Prop
  | .scal s => s = 1 ∨ s = 2 ∨ s = 4 ∨ s = 8 ∨ s = 16
  | .arr _ t => t.WF
  | .struct fs => fs.WF
  | .union fs => fs.WF
  | .packed fs => fs.WF
/-- Members that can be declared. -/
def CFields.WF : CFields → Prop
  | .nil => True
  | .field _ t r => t.WF ∧ r.WF
  | .bits _ u w r => (u = 1 ∨ u = 2 ∨ u = 4 ∨ u = 8) ∧ 0 < w ∧ w ≤ 8 * u ∧ r.WF
end

mutual
/-- Neither bit-fields nor packed structures. -/
def CDecl.Plain : CDecl → Prop
  | .scal _ => True
  | .arr _ t => t.Plain
  | .struct fs => fs.Plain
  | .union fs => fs.Plain
  | .packed _ => False
/-- No bit-fields, no packed structures. -/
def CFields.Plain : CFields → Prop
  | .nil => True
  | .field _ t r => t.Plain ∧ r.Plain
  | .bits _ _ _ _ => False
end

mutual
/-- No union anywhere. -/
def CDecl.NoUnion : CDecl → Prop
  | .scal _ => True
  | .arr _ t => t.NoUnion
  | .struct fs => fs.NoUnion
  | .union _ => False
  | .packed fs => fs.NoUnion
/-- No union among the members. -/
def CFields.NoUnion : CFields → Prop
  | .nil => True
  | .field _ t r => t.NoUnion ∧ r.NoUnion
  | .bits _ _ _ r => r.NoUnion
end

theorem roundUp_ge {x a : Nat} (h : 0 < a) : x ≤ roundUp x a := by
  simp only [roundUp]
  have h1 := Nat.div_add_mod (x + a - 1) a
  have h2 := Nat.mod_lt (x + a - 1) h
  rw [Nat.mul_comm]
  omega

theorem dvd_roundUp (x a : Nat) : a ∣ roundUp x a := Nat.dvd_mul_left _ _

theorem roundUp_lt {x a : Nat} (h : 0 < a) : roundUp x a < x + a := by
  simp only [roundUp]
  have h1 := Nat.div_mul_le_self (x + a - 1) a
  omega

theorem bitPos_ge {x u w : Nat} (h : 0 < u) : x ≤ bitPos x u w := by
  simp only [bitPos]
  split
  · exact Nat.le_refl _
  · exact roundUp_ge h

/-- The possible alignments. -/
def Al (a : Nat) : Prop := a = 8 ∨ a = 16 ∨ a = 32 ∨ a = 64 ∨ a = 128

theorem Al.max {a b : Nat} (ha : Al a) (hb : Al b) : Al (max a b) := by
  simp only [Al] at *
  omega

theorem Al.pos {a : Nat} (h : Al a) : 0 < a := by
  simp only [Al] at h
  omega

theorem Al.dvd {a b : Nat} (ha : Al a) (hb : Al b) (h : a ≤ b) : a ∣ b := by
  rcases ha with rfl | rfl | rfl | rfl | rfl <;> rcases hb with rfl | rfl | rfl | rfl | rfl <;> first | decide | omega

mutual
theorem CDecl.align_al : ∀ d : CDecl, d.WF → Al d.align
  | .scal s, h => by
    simp only [CDecl.WF] at h
    simp only [CDecl.align, Al]
    omega
  | .arr _ t, h => t.align_al h
  | .struct fs, h => fs.align_al h
  | .union fs, h => fs.align_al h
  | .packed _, _ => Or.inl rfl
theorem CFields.align_al : ∀ fs : CFields, fs.WF → Al fs.align
  | .nil, _ => Or.inl rfl
  | .field _ t r, h => Al.max (t.align_al h.1) (r.align_al h.2)
  | .bits _ u w r, h => by
    refine Al.max ?_ (r.align_al h.2.2.2)
    have := h.1
    simp only [Al]
    omega
end

theorem CFields.fin_ge : ∀ (fs : CFields) (pos : Nat), fs.WF → pos ≤ fs.fin pos
  | .nil, pos, _ => Nat.le_refl _
  | .field _ t r, pos, h => by
    have h1 := r.fin_ge (roundUp pos t.align + t.size) h.2
    have h2 := roundUp_ge (x := pos) (t.align_al h.1).pos
    simp only [CFields.fin]
    omega
  | .bits _ u w r, pos, h => by
    have h1 := r.fin_ge (bitPos pos (8 * u) w + w) h.2.2.2
    have h2 := bitPos_ge (x := pos) (u := 8 * u) (w := w) (by have := h.1; omega)
    simp only [CFields.fin]
    omega

theorem CFields.tight_ge : ∀ (fs : CFields) (pos : Nat), pos ≤ fs.tight pos
  | .nil, pos => Nat.le_refl _
  | .field _ t r, pos => by
    have h1 := r.tight_ge (pos + t.size)
    simp only [CFields.tight]
    omega
  | .bits _ _ w r, pos => by
    have h1 := r.tight_ge (pos + w)
    simp only [CFields.tight]
    omega

mutual
theorem CDecl.leaf_bounds : ∀ (d : CDecl) (path : List Sel) (off : Nat), d.WF → ∀ l ∈ d.leaves path off, off ≤ l.off ∧ l.off + l.width ≤ off + d.size
  | .scal s, path, off, _, l, hl => by
    simp only [CDecl.leaves, List.mem_singleton] at hl
    subst hl
    simp [CDecl.size]
  | .arr n t, path, off, h, l, hl => by
    simp only [CDecl.leaves, List.mem_flatMap, List.mem_range] at hl
    obtain ⟨i, hi, hl⟩ := hl
    have := t.leaf_bounds _ _ h l hl
    have h2 : (i + 1) * t.size ≤ n * t.size := Nat.mul_le_mul_right _ hi
    rw [Nat.add_mul] at h2
    simp only [CDecl.size]
    omega
  | .struct fs, path, off, h, l, hl => by
    have h1 := fs.leaf_bounds path off 0 h l hl
    have h2 := roundUp_ge (x := fs.fin 0) (fs.align_al h).pos
    simp only [CDecl.size]
    omega
  | .union fs, path, off, h, l, hl => by
    have h1 := fs.union_bounds path off h l hl
    have h2 := roundUp_ge (x := fs.widest) (fs.align_al h).pos
    simp only [CDecl.size]
    omega
  | .packed fs, path, off, h, l, hl => by
    have h1 := fs.tight_bounds path off 0 h l hl
    have h2 := roundUp_ge (x := fs.tight 0) (a := 8) (by omega)
    simp only [CDecl.size]
    omega
theorem CFields.leaf_bounds : ∀ (fs : CFields) (path : List Sel) (off pos : Nat), fs.WF → ∀ l ∈ fs.leaves path off pos,
    off + pos ≤ l.off ∧ l.off + l.width ≤ off + fs.fin pos
  | .nil, _, _, _, _, l, hl => by simp [CFields.leaves] at hl
  | .field x t r, path, off, pos, h, l, hl => by
    simp only [CFields.leaves, List.mem_append] at hl
    have h0 := roundUp_ge (x := pos) (t.align_al h.1).pos
    simp only [CFields.fin]
    rcases hl with hl | hl
    · have h1 := t.leaf_bounds _ _ h.1 l hl
      have h2 := r.fin_ge (roundUp pos t.align + t.size) h.2
      omega
    · have h1 := r.leaf_bounds _ _ _ h.2 l hl
      omega
  | .bits x u w r, path, off, pos, h, l, hl => by
    simp only [CFields.leaves, List.mem_cons] at hl
    have h0 := bitPos_ge (x := pos) (u := 8 * u) (w := w) (by have := h.1; omega)
    simp only [CFields.fin]
    rcases hl with rfl | hl
    · have h2 := r.fin_ge (bitPos pos (8 * u) w + w) h.2.2.2
      simp only
      omega
    · have h1 := r.leaf_bounds _ _ _ h.2.2.2 l hl
      omega
theorem CFields.union_bounds : ∀ (fs : CFields) (path : List Sel) (off : Nat), fs.WF → ∀ l ∈ fs.unionLeaves path off,
    off ≤ l.off ∧ l.off + l.width ≤ off + fs.widest
  | .nil, _, _, _, l, hl => by simp [CFields.unionLeaves] at hl
  | .field x t r, path, off, h, l, hl => by
    simp only [CFields.unionLeaves, List.mem_append] at hl
    simp only [CFields.widest]
    rcases hl with hl | hl
    · have h1 := t.leaf_bounds _ _ h.1 l hl
      omega
    · have h1 := r.union_bounds _ _ h.2 l hl
      omega
  | .bits x u w r, path, off, h, l, hl => by
    simp only [CFields.unionLeaves, List.mem_cons] at hl
    simp only [CFields.widest]
    rcases hl with rfl | hl
    · simp only
      omega
    · have h1 := r.union_bounds _ _ h.2.2.2 l hl
      omega
theorem CFields.tight_bounds : ∀ (fs : CFields) (path : List Sel) (off pos : Nat), fs.WF → ∀ l ∈ fs.tightLeaves path off pos,
    off + pos ≤ l.off ∧ l.off + l.width ≤ off + fs.tight pos
  | .nil, _, _, _, _, l, hl => by simp [CFields.tightLeaves] at hl
  | .field x t r, path, off, pos, h, l, hl => by
    simp only [CFields.tightLeaves, List.mem_append] at hl
    simp only [CFields.tight]
    rcases hl with hl | hl
    · have h1 := t.leaf_bounds _ _ h.1 l hl
      have h2 := r.tight_ge (pos + t.size)
      omega
    · have h1 := r.tight_bounds _ _ _ h.2 l hl
      omega
  | .bits x u w r, path, off, pos, h, l, hl => by
    simp only [CFields.tightLeaves, List.mem_cons] at hl
    simp only [CFields.tight]
    rcases hl with rfl | hl
    · have h2 := r.tight_ge (pos + w)
      simp only
      omega
    · have h1 := r.tight_bounds _ _ _ h.2.2.2 l hl
      omega
end

theorem pairwise_flatMap_range {α : Type} {R : α → α → Prop} {f : Nat → List α} {n : Nat} (h1 : ∀ i < n, (f i).Pairwise R)
    (h2 : ∀ i j, i < j → j < n → ∀ a ∈ f i, ∀ b ∈ f j, R a b) : ((List.range n).flatMap f).Pairwise R := by
  induction n with
  | zero => simp
  | succ n ih =>
    rw [List.range_succ, List.flatMap_append, List.pairwise_append]
    refine ⟨ih (fun i hi => h1 i (by omega)) (fun i j hij hj => h2 i j hij (by omega)), by simpa using h1 n (by omega), ?_⟩
    intro a ha b hb
    simp only [List.mem_flatMap, List.mem_range] at ha
    obtain ⟨i, hi, ha⟩ := ha
    simp only [List.flatMap_cons, List.flatMap_nil, List.append_nil] at hb
    exact h2 i n hi (by omega) a ha b hb

mutual
theorem CDecl.leaf_disjoint : ∀ (d : CDecl) (path : List Sel) (off : Nat), d.WF → d.NoUnion →
    (d.leaves path off).Pairwise fun a b => a.off + a.width ≤ b.off
  | .scal s, path, off, _, _ => by simp [CDecl.leaves]
  | .arr n t, path, off, h, hn => by
    simp only [CDecl.leaves]
    apply pairwise_flatMap_range
    · intro i _
      exact t.leaf_disjoint _ _ h hn
    · intro i j hij _ a ha b hb
      have h1 := t.leaf_bounds _ _ h a ha
      have h2 := t.leaf_bounds _ _ h b hb
      have h3 : (i + 1) * t.size ≤ j * t.size := Nat.mul_le_mul_right _ hij
      rw [Nat.add_mul] at h3
      omega
  | .struct fs, path, off, h, hn => fs.leaf_disjoint path off 0 h hn
  | .union _, _, _, _, hn => hn.elim
  | .packed fs, path, off, h, hn => fs.tight_disjoint path off 0 h hn
theorem CFields.leaf_disjoint : ∀ (fs : CFields) (path : List Sel) (off pos : Nat), fs.WF → fs.NoUnion →
    (fs.leaves path off pos).Pairwise fun a b => a.off + a.width ≤ b.off
  | .nil, _, _, _, _, _ => by simp [CFields.leaves]
  | .field x t r, path, off, pos, h, hn => by
    simp only [CFields.leaves, List.pairwise_append]
    refine ⟨t.leaf_disjoint _ _ h.1 hn.1, r.leaf_disjoint _ _ _ h.2 hn.2, ?_⟩
    intro a ha b hb
    have h1 := t.leaf_bounds _ _ h.1 a ha
    have h2 := r.leaf_bounds _ _ _ h.2 b hb
    omega
  | .bits x u w r, path, off, pos, h, hn => by
    simp only [CFields.leaves, List.pairwise_cons]
    refine ⟨?_, r.leaf_disjoint _ _ _ h.2.2.2 hn⟩
    intro b hb
    have h2 := r.leaf_bounds _ _ _ h.2.2.2 b hb
    omega
theorem CFields.tight_disjoint : ∀ (fs : CFields) (path : List Sel) (off pos : Nat), fs.WF → fs.NoUnion →
    (fs.tightLeaves path off pos).Pairwise fun a b => a.off + a.width ≤ b.off
  | .nil, _, _, _, _, _ => by simp [CFields.tightLeaves]
  | .field x t r, path, off, pos, h, hn => by
    simp only [CFields.tightLeaves, List.pairwise_append]
    refine ⟨t.leaf_disjoint _ _ h.1 hn.1, r.tight_disjoint _ _ _ h.2 hn.2, ?_⟩
    intro a ha b hb
    have h1 := t.leaf_bounds _ _ h.1 a ha
    have h2 := r.tight_bounds _ _ _ h.2 b hb
    omega
  | .bits x u w r, path, off, pos, h, hn => by
    simp only [CFields.tightLeaves, List.pairwise_cons]
    refine ⟨?_, r.tight_disjoint _ _ _ h.2.2.2 hn⟩
    intro b hb
    have h2 := r.tight_bounds _ _ _ h.2.2.2 b hb
    omega
end

mutual
theorem CDecl.align_size : ∀ d : CDecl, d.align ∣ d.size
  | .scal s => Nat.dvd_refl _
  | .arr n t => Nat.dvd_trans t.align_size (Nat.dvd_mul_left _ _)
  | .struct _ => dvd_roundUp _ _
  | .union _ => dvd_roundUp _ _
  | .packed _ => dvd_roundUp _ _
end

mutual
theorem CDecl.leaf_aligned : ∀ (d : CDecl) (path : List Sel) (off : Nat), d.WF → d.Plain → d.align ∣ off → ∀ l ∈ d.leaves path off, l.width ∣ l.off
  | .scal s, path, off, _, _, ho, l, hl => by
    simp only [CDecl.leaves, List.mem_singleton] at hl
    subst hl
    exact ho
  | .arr n t, path, off, h, hn, ho, l, hl => by
    simp only [CDecl.leaves, List.mem_flatMap] at hl
    obtain ⟨i, _, hl⟩ := hl
    exact t.leaf_aligned _ _ h hn (Nat.dvd_add ho (Nat.dvd_trans t.align_size (Nat.dvd_mul_left _ _))) l hl
  | .struct fs, path, off, h, hn, ho, l, hl => fs.leaf_aligned path off 0 h hn fs.align (fs.align_al h) (Nat.le_refl _) ho l hl
  | .union fs, path, off, h, hn, ho, l, hl => fs.union_aligned path off h hn fs.align (fs.align_al h) (Nat.le_refl _) ho l hl
  | .packed _, _, _, _, hn, _, _, _ => hn.elim
theorem CFields.leaf_aligned : ∀ (fs : CFields) (path : List Sel) (off pos : Nat), fs.WF → fs.Plain → ∀ A, Al A → fs.align ≤ A → A ∣ off →
    ∀ l ∈ fs.leaves path off pos, l.width ∣ l.off
  | .nil, _, _, _, _, _, _, _, _, _, l, hl => by simp [CFields.leaves] at hl
  | .field x t r, path, off, pos, h, hn, A, hA, ha, ho, l, hl => by
    simp only [CFields.leaves, List.mem_append] at hl
    simp only [CFields.align] at ha
    rcases hl with hl | hl
    · have : t.align ∣ off := Nat.dvd_trans (Al.dvd (t.align_al h.1) hA (by omega)) ho
      exact t.leaf_aligned _ _ h.1 hn.1 (Nat.dvd_add this (dvd_roundUp _ _)) l hl
    · exact r.leaf_aligned _ _ _ h.2 hn.2 A hA (by omega) ho l hl
  | .bits _ _ _ _, _, _, _, _, hn, _, _, _, _, _, _ => hn.elim
theorem CFields.union_aligned : ∀ (fs : CFields) (path : List Sel) (off : Nat), fs.WF → fs.Plain → ∀ A, Al A → fs.align ≤ A → A ∣ off →
    ∀ l ∈ fs.unionLeaves path off, l.width ∣ l.off
  | .nil, _, _, _, _, _, _, _, _, l, hl => by simp [CFields.unionLeaves] at hl
  | .field x t r, path, off, h, hn, A, hA, ha, ho, l, hl => by
    simp only [CFields.unionLeaves, List.mem_append] at hl
    simp only [CFields.align] at ha
    rcases hl with hl | hl
    · exact t.leaf_aligned _ _ h.1 hn.1 (Nat.dvd_trans (Al.dvd (t.align_al h.1) hA (by omega)) ho) l hl
    · exact r.union_aligned _ _ h.2 hn.2 A hA (by omega) ho l hl
  | .bits _ _ _ _, _, _, _, hn, _, _, _, _, _, _ => hn.elim
end

end Minilib

import Verif.C.Res
/-
Byte-addressed memory of a C program.

An address is a natural number; address 0 is the null pointer by convention.  `m a = none` means
that no object of the program lives at `a`, and touching it is undefined behaviour.  Memory is not
bounded in size.
-/

/-- A C `char` / `unsigned char` object (8 bits). -/
abbrev Byte := BitVec 8

/-- Memory: which addresses are backed by an object, and the byte stored there. -/
abbrev Mem := Nat → Option Byte

set_option autoImplicit false

namespace Mem

/-- `*a` as an rvalue: undefined behaviour outside the mapped addresses. -/
def load (m : Mem) (a : Nat) : Res Byte :=
  match m a with
  | some b => .ok b
  | none => .ub

/-- Memory with the byte at `a` replaced. -/
def upd (m : Mem) (a : Nat) (b : Byte) : Mem := fun x => if x = a then some b else m x

/-- `*a = b`: undefined behaviour outside the mapped addresses. -/
def store (m : Mem) (a : Nat) (b : Byte) : Res Mem :=
  match m a with
  | some _ => .ok (m.upd a b)
  | none => .ub

/-! ### Vocabulary of the specifications -/

/-- The bytes `l` are stored from address `p` on. -/
def Holds (m : Mem) (p : Nat) (l : List Byte) : Prop :=
  ∀ i (h : i < l.length), m (p + i) = some l[i]

/-- All of `[p, p+n)` is backed by an object (so may be written). -/
def Mapped (m : Mem) (p n : Nat) : Prop := ∀ i, i < n → ∃ b, m (p + i) = some b

/-- A NUL-terminated string with contents `s` (no embedded NUL) starts at `p`. -/
def IsStr (m : Mem) (p : Nat) (s : List Byte) : Prop :=
  m.Holds p s ∧ m (p + s.length) = some 0#8 ∧ ∀ b ∈ s, b ≠ 0#8

/-- Memory equal to `m` except that the bytes `l` are stored from `p` on. -/
def write (m : Mem) (p : Nat) (l : List Byte) : Mem := fun a =>
  if p ≤ a then (match l[a - p]? with | some b => some b | none => m a) else m a

/-- A memory with a single object at `p` holding `l` (for concrete examples). -/
def object (p : Nat) (l : List Byte) : Mem := fun a => if p ≤ a then l[a - p]? else none

/-- A memory made of several objects (address, contents); for concrete examples. -/
def objects (os : List (Nat × List Byte)) : Mem := fun a =>
  os.findSome? (fun o => if o.1 ≤ a then o.2[a - o.1]? else none)

instance (m : Mem) (p : Nat) (l : List Byte) : Decidable (m.Holds p l) :=
  inferInstanceAs (Decidable (∀ i (h : i < l.length), m (p + i) = some l[i]))

instance (m : Mem) (p n : Nat) : Decidable (m.Mapped p n) :=
  decidable_of_iff (∀ i, i < n → (m (p + i)).isSome = true)
    ⟨fun h i hi => Option.isSome_iff_exists.1 (h i hi),
     fun h i hi => Option.isSome_iff_exists.2 (h i hi)⟩

instance (m : Mem) (p : Nat) (s : List Byte) : Decidable (m.IsStr p s) :=
  inferInstanceAs (Decidable (_ ∧ _))

/-! ### Basic facts -/

theorem load_some {m : Mem} {a : Nat} {b : Byte} (h : m a = some b) : m.load a = .ok b := by
  simp [load, h]

theorem load_none {m : Mem} {a : Nat} (h : m a = none) : m.load a = .ub := by simp [load, h]

theorem store_some {m : Mem} {a : Nat} {b c : Byte} (h : m a = some c) :
    m.store a b = .ok (m.upd a b) := by simp [store, h]

theorem store_none {m : Mem} {a : Nat} {b : Byte} (h : m a = none) : m.store a b = .ub := by
  simp [store, h]

@[simp] theorem upd_same (m : Mem) (a : Nat) (b : Byte) : m.upd a b a = some b := by simp [upd]

theorem upd_ne {m : Mem} {a x : Nat} {b : Byte} (h : x ≠ a) : m.upd a b x = m x := by
  simp [upd, h]

theorem holds_nil (m : Mem) (p : Nat) : m.Holds p [] := by intro i h; simp at h

theorem holds_cons {m : Mem} {p : Nat} {b : Byte} {l : List Byte} :
    m.Holds p (b :: l) ↔ m p = some b ∧ m.Holds (p + 1) l := by
  constructor
  · intro h
    refine ⟨h 0 (by simp), fun i hi => ?_⟩
    have := h (i + 1) (by simpa using hi)
    rw [← Nat.add_assoc, Nat.add_right_comm] at this
    simpa using this
  · rintro ⟨h0, h1⟩ i hi
    cases i with
    | zero => simpa using h0
    | succ i =>
      have := h1 i (by simpa using hi)
      rw [← Nat.add_assoc, Nat.add_right_comm]
      simpa using this

theorem isStr_nil {m : Mem} {p : Nat} : m.IsStr p [] ↔ m p = some 0#8 := by
  simp [IsStr, holds_nil]

theorem isStr_cons {m : Mem} {p : Nat} {b : Byte} {s : List Byte} :
    m.IsStr p (b :: s) ↔ m p = some b ∧ b ≠ 0#8 ∧ m.IsStr (p + 1) s := by
  simp only [IsStr, holds_cons, List.length_cons, List.mem_cons, forall_eq_or_imp]
  rw [show p + (s.length + 1) = p + 1 + s.length by omega]
  constructor
  · rintro ⟨⟨h1, h2⟩, h3, h4, h5⟩; exact ⟨h1, h4, h2, h3, h5⟩
  · rintro ⟨h1, h4, h2, h3, h5⟩; exact ⟨⟨h1, h2⟩, h3, h4, h5⟩

theorem mapped_succ {m : Mem} {p n : Nat} :
    m.Mapped p (n + 1) ↔ (∃ b, m p = some b) ∧ m.Mapped (p + 1) n := by
  constructor
  · intro h
    refine ⟨by simpa using h 0 (by omega), fun i hi => ?_⟩
    have := h (i + 1) (by omega)
    rwa [← Nat.add_assoc, Nat.add_right_comm] at this
  · rintro ⟨h0, h1⟩ i hi
    cases i with
    | zero => simpa using h0
    | succ i =>
      have := h1 i (by omega)
      rwa [← Nat.add_assoc, Nat.add_right_comm]

theorem Mapped.mono {m : Mem} {p n k : Nat} (h : m.Mapped p n) (hk : k ≤ n) : m.Mapped p k :=
  fun i hi => h i (by omega)

theorem Mapped.upd {m : Mem} {p n : Nat} (h : m.Mapped p n) (a : Nat) (b : Byte) :
    (m.upd a b).Mapped p n := by
  intro i hi
  unfold Mem.upd
  split
  · exact ⟨_, rfl⟩
  · exact h i hi

theorem Holds.upd {m : Mem} {p : Nat} {l : List Byte} (h : m.Holds p l) {a : Nat} (b : Byte)
    (hd : a < p ∨ p + l.length ≤ a) : (m.upd a b).Holds p l := by
  intro i hi
  rw [upd_ne (by omega)]
  exact h i hi

theorem IsStr.upd {m : Mem} {p : Nat} {s : List Byte} (h : m.IsStr p s) {a : Nat} (b : Byte)
    (hd : a < p ∨ p + s.length < a) : (m.upd a b).IsStr p s :=
  ⟨h.1.upd b (by omega), by rw [upd_ne (by omega)]; exact h.2.1, h.2.2⟩

@[simp] theorem write_nil (m : Mem) (p : Nat) : m.write p [] = m := by
  funext a; simp [write]

theorem write_cons (m : Mem) (p : Nat) (b : Byte) (l : List Byte) :
    m.write p (b :: l) = (m.upd p b).write (p + 1) l := by
  funext a
  unfold write upd
  by_cases h : a < p
  · simp [Nat.not_le.mpr h, show ¬ p + 1 ≤ a by omega, show a ≠ p by omega]
  · by_cases h2 : a = p
    · subst h2; simp [show ¬ a + 1 ≤ a by omega]
    · rw [if_pos (by omega), if_pos (by omega)]
      obtain ⟨k, rfl⟩ : ∃ k, a = p + 1 + k := ⟨a - (p + 1), by omega⟩
      rw [show p + 1 + k - p = k + 1 by omega, show p + 1 + k - (p + 1) = k by omega]
      simp [h2]

theorem write_singleton (m : Mem) (p : Nat) (b : Byte) : m.write p [b] = m.upd p b := by
  rw [write_cons]; simp

/-- Reading back inside a written range. -/
theorem write_inside (m : Mem) (p : Nat) (l : List Byte) (i : Nat) (h : i < l.length) :
    m.write p l (p + i) = some l[i] := by
  simp [write, h]

/-- A write touches nothing outside `[p, p + l.length)`. -/
theorem write_outside (m : Mem) (p : Nat) (l : List Byte) (a : Nat)
    (h : a < p ∨ p + l.length ≤ a) : m.write p l a = m a := by
  unfold write
  split
  · rw [List.getElem?_eq_none (by omega)]
  · rfl

theorem write_holds (m : Mem) (p : Nat) (l : List Byte) : (m.write p l).Holds p l :=
  fun i h => write_inside m p l i h

theorem Holds.write {m : Mem} {p : Nat} {l : List Byte} (h : m.Holds p l) {q : Nat}
    {k : List Byte} (hd : q + k.length ≤ p ∨ p + l.length ≤ q) : (m.write q k).Holds p l := by
  intro i hi
  rw [write_outside _ _ _ _ (by omega)]
  exact h i hi

theorem IsStr.write {m : Mem} {p : Nat} {s : List Byte} (h : m.IsStr p s) {q : Nat}
    {k : List Byte} (hd : q + k.length ≤ p ∨ p + s.length < q) : (m.write q k).IsStr p s :=
  ⟨h.1.write (by omega), by rw [write_outside _ _ _ _ (by omega)]; exact h.2.1, h.2.2⟩

theorem Mapped.write {m : Mem} {p n : Nat} (h : m.Mapped p n) (q : Nat) (l : List Byte) :
    (m.write q l).Mapped p n := by
  induction l generalizing m q with
  | nil => simpa
  | cons b l ih => rw [write_cons]; exact ih (h.upd q b) _

theorem write_append (m : Mem) (p : Nat) (l k : List Byte) :
    m.write p (l ++ k) = (m.write p l).write (p + l.length) k := by
  induction l generalizing m p with
  | nil => simp
  | cons b l ih =>
    rw [List.cons_append, write_cons, ih, write_cons]
    simp [Nat.add_assoc, Nat.add_comm 1]

theorem Holds.mapped {m : Mem} {p : Nat} {l : List Byte} (h : m.Holds p l) :
    m.Mapped p l.length := fun i hi => ⟨_, h i hi⟩

theorem IsStr.mapped {m : Mem} {p : Nat} {s : List Byte} (h : m.IsStr p s) :
    m.Mapped p (s.length + 1) := by
  intro i hi
  by_cases hs : i < s.length
  · exact ⟨_, h.1 i hs⟩
  · rw [show i = s.length by omega]; exact ⟨_, h.2.1⟩

theorem holds_append {m : Mem} {p : Nat} {l k : List Byte} :
    m.Holds p (l ++ k) ↔ m.Holds p l ∧ m.Holds (p + l.length) k := by
  induction l generalizing p with
  | nil => simp [holds_nil]
  | cons b l ih =>
    simp only [List.cons_append, holds_cons, ih, List.length_cons]
    rw [show p + (l.length + 1) = p + 1 + l.length by omega, and_assoc]

theorem isStr_iff {m : Mem} {p : Nat} {s : List Byte} :
    m.IsStr p s ↔ m.Holds p (s ++ [0#8]) ∧ ∀ b ∈ s, b ≠ 0#8 := by
  simp [IsStr, holds_append, holds_cons, holds_nil, and_assoc]

theorem holds_object (p : Nat) (l : List Byte) : (object p l).Holds p l := by
  intro i h
  simp [object, h]

theorem isStr_object (p : Nat) (s : List Byte) (h : ∀ b ∈ s, b ≠ 0#8) (k : List Byte) :
    (object p (s ++ 0#8 :: k)).IsStr p s := by
  refine ⟨fun i hi => ?_, ?_, h⟩
  · simp [object, List.getElem?_append_left hi, hi]
  · simp [object]

/-- The string found at an address is unique. -/
theorem IsStr.unique {m : Mem} {p : Nat} {s t : List Byte} (hs : m.IsStr p s) (ht : m.IsStr p t) :
    s = t := by
  induction s generalizing p t with
  | nil =>
    cases t with
    | nil => rfl
    | cons b t =>
      rw [isStr_nil] at hs; rw [isStr_cons] at ht
      have := ht.1.symm.trans hs; simp at this; exact absurd this ht.2.1
  | cons a s ih =>
    cases t with
    | nil =>
      rw [isStr_nil] at ht; rw [isStr_cons] at hs
      have := hs.1.symm.trans ht; simp at this; exact absurd this hs.2.1
    | cons b t =>
      rw [isStr_cons] at hs ht
      have := hs.1.symm.trans ht.1; simp at this
      rw [this, ih hs.2.2 ht.2.2]

end Mem

import Verif.Lemmas.Str
/-
Helper lemmas: comparison, search and tokenising loops.
-/

set_option autoImplicit false

namespace Minilib
open Mem Spec

theorem sub_toNat_neg (x y : Byte) : ((x.toNat : Int) - (y.toNat : Int) < 0) ↔ x < y := by
  rw [BitVec.lt_def]; omega

theorem sub_toNat_pos (x y : Byte) : (0 < (x.toNat : Int) - (y.toNat : Int)) ↔ y < x := by
  rw [BitVec.lt_def]; omega

theorem sub_toNat_zero (x y : Byte) : ((x.toNat : Int) - (y.toNat : Int) = 0) ↔ x = y := by
  rw [← BitVec.toNat_inj]; omega

theorem byte_pos {b : Byte} (h : b ≠ 0#8) : 0#8 < b := by
  rw [BitVec.lt_def]
  have : b.toNat ≠ 0 := fun hc => h (by rw [← BitVec.toNat_inj]; simpa using hc)
  simpa using Nat.pos_of_ne_zero this

theorem byte_irrefl (b : Byte) : ¬ b < b := by rw [BitVec.lt_def]; omega

theorem byte_not_lt_zero (b : Byte) : ¬ b < 0#8 := by rw [BitVec.lt_def]; simp

theorem strcmpCore_neg {m : Mem} {p q : Nat} {a b : List Byte} {n : Int} (ha : m.IsStr p a)
    (hb : m.IsStr q b) (hn : n < 0) (hlen : INT_MIN ≤ n - (a.length : Int)) :
    ∃ r, strcmpCore m p q n = .ok r ∧ (r < 0 ↔ a < b) ∧ (r = 0 ↔ a = b) ∧ (0 < r ↔ b < a) := by
  induction a generalizing p q b n with
  | nil =>
    rw [isStr_nil] at ha
    cases b with
    | nil =>
      rw [isStr_nil] at hb
      refine ⟨0, ?_, by simp, by simp, by simp⟩
      rw [strcmpCore, load_some ha, load_some hb]; simp
    | cons y b =>
      obtain ⟨h1, h2, h3⟩ := isStr_cons.1 hb
      refine ⟨((0#8).toNat : Int) - (y.toNat : Int), ?_, ?_, ?_, ?_⟩
      · rw [strcmpCore, load_some ha, load_some h1]
        simp only [Res.ok_bind]; rw [if_pos (fun h => h2 h.symm)]; rfl
      · rw [sub_toNat_neg]; simp [byte_pos h2]
      · rw [sub_toNat_zero]; simp [Ne.symm h2]
      · rw [sub_toNat_pos]; simp
  | cons x a ih =>
    obtain ⟨h1, h2, h3⟩ := isStr_cons.1 ha
    cases b with
    | nil =>
      rw [isStr_nil] at hb
      refine ⟨(x.toNat : Int) - ((0#8).toNat : Int), ?_, ?_, ?_, ?_⟩
      · rw [strcmpCore, load_some h1, load_some hb]
        simp only [Res.ok_bind]; rw [if_pos h2]; rfl
      · rw [sub_toNat_neg]; simp
      · rw [sub_toNat_zero]; simp [h2]
      · rw [sub_toNat_pos]; simp [byte_pos h2]
    | cons y b =>
      obtain ⟨g1, g2, g3⟩ := isStr_cons.1 hb
      by_cases hxy : x = y
      · subst hxy
        rw [List.length_cons] at hlen
        obtain ⟨r, hr, e1, e2, e3⟩ := @ih (p + 1) (q + 1) b (n - 1) h3 g3 (by omega) (by omega)
        refine ⟨r, ?_, ?_, ?_, ?_⟩
        · rw [strcmpCore, load_some h1, load_some g1]
          simp only [Res.ok_bind, ne_eq, not_true_eq_false, if_false, h2]
          rw [decInt_ok (by omega), Res.ok_bind, if_pos (by omega)]; exact hr
        · rw [e1, List.cons_lt_cons_iff]; simp
        · rw [e2]; simp
        · rw [e3, List.cons_lt_cons_iff]; simp
      · refine ⟨(x.toNat : Int) - (y.toNat : Int), ?_, ?_, ?_, ?_⟩
        · rw [strcmpCore, load_some h1, load_some g1]
          simp only [Res.ok_bind]; rw [if_pos hxy]; rfl
        · rw [sub_toNat_neg, List.cons_lt_cons_iff]; simp [hxy]
        · rw [sub_toNat_zero]; simp [hxy]
        · rw [sub_toNat_pos, List.cons_lt_cons_iff]; simp [Ne.symm hxy]

theorem strN_nil {m : Mem} {p n : Nat} (h : StrN m p (n + 1) []) : m p = some 0#8 := by
  have := h.2.2
  simp only [List.length_nil, Nat.add_zero] at this
  exact (this.resolve_left (by omega)).2

theorem strcmpCore_pos {m : Mem} {p q n : Nat} {a b : List Byte} (ha : StrN m p (n + 1) a)
    (hb : StrN m q (n + 1) b) :
    ∃ r, strcmpCore m p q ((n : Int) + 1) = .ok r ∧ (r < 0 ↔ a < b) ∧ (r = 0 ↔ a = b) ∧
      (0 < r ↔ b < a) := by
  induction a generalizing p q b n with
  | nil =>
    have ha := strN_nil ha
    cases b with
    | nil =>
      have hb := strN_nil hb
      refine ⟨0, ?_, by simp, by simp, by simp⟩
      rw [strcmpCore, load_some ha, load_some hb]; simp
    | cons y b =>
      obtain ⟨h1, h2, h3⟩ := strN_cons hb
      refine ⟨((0#8).toNat : Int) - (y.toNat : Int), ?_, ?_, ?_, ?_⟩
      · rw [strcmpCore, load_some ha, load_some h1]
        simp only [Res.ok_bind]; rw [if_pos (fun h => h2 h.symm)]; rfl
      · rw [sub_toNat_neg]; simp [byte_pos h2]
      · rw [sub_toNat_zero]; simp [Ne.symm h2]
      · rw [sub_toNat_pos]; simp
  | cons x a ih =>
    obtain ⟨h1, h2, h3⟩ := strN_cons ha
    cases b with
    | nil =>
      have hb := strN_nil hb
      refine ⟨(x.toNat : Int) - ((0#8).toNat : Int), ?_, ?_, ?_, ?_⟩
      · rw [strcmpCore, load_some h1, load_some hb]
        simp only [Res.ok_bind]; rw [if_pos h2]; rfl
      · rw [sub_toNat_neg]; simp
      · rw [sub_toNat_zero]; simp [h2]
      · rw [sub_toNat_pos]; simp [byte_pos h2]
    | cons y b =>
      obtain ⟨g1, g2, g3⟩ := strN_cons hb
      by_cases hxy : x = y
      · subst hxy
        cases n with
        | zero =>
          have e1 : a = [] := List.eq_nil_of_length_eq_zero (by have := strN_length_le h3; omega)
          have e2 : b = [] := List.eq_nil_of_length_eq_zero (by have := strN_length_le g3; omega)
          subst e1; subst e2
          refine ⟨0, ?_, by simp, by simp, by simp⟩
          rw [strcmpCore, load_some h1, load_some g1]
          simp only [Res.ok_bind, ne_eq, not_true_eq_false, if_false, h2]
          rw [decInt_ok (by omega), Res.ok_bind, if_neg (by omega)]; rfl
        | succ n =>
          obtain ⟨r, hr, e1, e2, e3⟩ := @ih (p + 1) (q + 1) n b h3 g3
          refine ⟨r, ?_, ?_, ?_, ?_⟩
          · rw [strcmpCore, load_some h1, load_some g1]
            simp only [Res.ok_bind, ne_eq, not_true_eq_false, if_false, h2]
            rw [decInt_ok (by omega), Res.ok_bind, if_pos (by omega)]
            rw [show ((n + 1 : Nat) : Int) + 1 - 1 = (n : Int) + 1 by omega]; exact hr
          · rw [e1, List.cons_lt_cons_iff]; simp
          · rw [e2]; simp
          · rw [e3, List.cons_lt_cons_iff]; simp
      · refine ⟨(x.toNat : Int) - (y.toNat : Int), ?_, ?_, ?_, ?_⟩
        · rw [strcmpCore, load_some h1, load_some g1]
          simp only [Res.ok_bind]; rw [if_pos hxy]; rfl
        · rw [sub_toNat_neg, List.cons_lt_cons_iff]; simp [hxy]
        · rw [sub_toNat_zero]; simp [hxy]
        · rw [sub_toNat_pos, List.cons_lt_cons_iff]; simp [Ne.symm hxy]

/-- Only the bytes up to the first difference are needed. -/
theorem strcmpCore_diff {m : Mem} {p q : Nat} {c : List Byte} {x y : Byte} {n : Int}
    (ha : m.Holds p (c ++ [x])) (hb : m.Holds q (c ++ [y])) (hc : ∀ b ∈ c, b ≠ 0#8) (hxy : x ≠ y)
    (hn : (n < 0 ∧ INT_MIN ≤ n - (c.length : Int)) ∨ (c.length : Int) < n) :
    strcmpCore m p q n = .ok ((x.toNat : Int) - (y.toNat : Int)) := by
  induction c generalizing p q n with
  | nil =>
    rw [List.nil_append, holds_cons] at ha hb
    rw [strcmpCore, load_some ha.1, load_some hb.1]
    simp only [Res.ok_bind]; rw [if_pos hxy]; rfl
  | cons z c ih =>
    rw [List.cons_append, holds_cons] at ha hb
    rw [List.length_cons] at hn
    rw [strcmpCore, load_some ha.1, load_some hb.1]
    simp only [Res.ok_bind, ne_eq, not_true_eq_false, if_false, hc z (by simp)]
    rw [decInt_ok (by omega), Res.ok_bind, if_pos (by omega)]
    exact ih ha.2 hb.2 (fun b hb => hc b (by simp [hb])) (by omega)

/-! ### strcasecmp -/

/-- What `_strcasecmp` computes without a length limit: the bytes are compared after setting bit 5,
and a difference in length gives 1 whichever string is longer. -/
def caseCmp : List Byte → List Byte → Int
  | [], [] => 0
  | [], _ :: _ => 1
  | _ :: _, [] => 1
  | x :: a, y :: b =>
    if tolowerChar x > tolowerChar y then 1
    else if tolowerChar x < tolowerChar y then -1
    else caseCmp a b

theorem strcasecmpLoop_eq {m : Mem} {p q k : Nat} {a b : List Byte} (ha : m.IsStr (p + k) a)
    (hb : m.IsStr (q + k) b) (hlen : k + a.length < 2147483648) :
    strcasecmpLoop m p q (-1) k = .ok (caseCmp a b) := by
  induction a generalizing k b with
  | nil =>
    rw [isStr_nil] at ha
    cases b with
    | nil =>
      rw [isStr_nil] at hb
      rw [strcasecmpLoop, load_some ha, load_some hb]; simp [caseCmp]
    | cons y b =>
      obtain ⟨h1, h2, h3⟩ := isStr_cons.1 hb
      rw [strcasecmpLoop, load_some ha, load_some h1]
      simp only [Res.ok_bind, ne_eq, not_true_eq_false, if_false, h2]; rfl
  | cons x a ih =>
    obtain ⟨h1, h2, h3⟩ := isStr_cons.1 ha
    rw [strcasecmpLoop, load_some h1]
    simp only [Res.ok_bind]
    rw [if_pos h2]
    cases b with
    | nil =>
      rw [isStr_nil] at hb
      rw [load_some hb]; simp [caseCmp]
    | cons y b =>
      obtain ⟨g1, g2, g3⟩ := isStr_cons.1 hb
      rw [load_some g1]
      simp only [Res.ok_bind]
      rw [if_pos ⟨g2, by omega⟩]
      rw [List.length_cons] at hlen
      have hrec := @ih (k + 1) b (by rw [← Nat.add_assoc]; exact h3)
        (by rw [← Nat.add_assoc]; exact g3) (by omega)
      simp only [caseCmp, incInt_ok (show k < 2147483647 by omega), Res.ok_bind, hrec]
      by_cases hxy : x = y
      · subst hxy; simp
      · simp only [ne_eq, hxy, not_false_eq_true, true_and]
        split
        · rfl
        · split
          · rfl
          · rfl

theorem caseCmp_zero {a b : List Byte} :
    caseCmp a b = 0 ↔ a.map tolowerChar = b.map tolowerChar := by
  induction a generalizing b with
  | nil => cases b <;> simp [caseCmp]
  | cons x a ih =>
    cases b with
    | nil => simp [caseCmp]
    | cons y b =>
      simp only [caseCmp, List.map_cons, List.cons.injEq]
      split
      · simp; omega
      · split
        · simp; omega
        · rw [ih]
          have : tolowerChar x = tolowerChar y := by omega
          simp [this]

/-! ### search -/

theorem strchrnul_eq {m : Mem} {p : Nat} {s : List Byte} (h : m.IsStr p s) (c : Int) :
    strchrnul m p c = .ok (p + (s.takeWhile (fun b => decide (b.toInt ≠ c))).length) := by
  induction s generalizing p with
  | nil => rw [strchrnul, load_some (isStr_nil.1 h)]; simp
  | cons b s ih =>
    obtain ⟨h1, h2, h3⟩ := isStr_cons.1 h
    rw [strchrnul, load_some h1]
    simp only [Res.ok_bind]
    rw [if_pos h2]
    by_cases hb : b.toInt = c
    · simp [hb]
    · rw [if_neg hb, ih h3]; simp [hb]; omega

/-- The address of position `i` of a string can be read. -/
theorem isStr_at {m : Mem} {p i : Nat} {s : List Byte} (h : m.IsStr p s) (hi : i ≤ s.length) :
    m (p + i) = some ((s ++ [0#8])[i]'(by simp; omega)) := by
  have := (isStr_iff.1 h).1
  exact this i (by simp; omega)

theorem isStr_drop {m : Mem} {p i : Nat} {s : List Byte} (h : m.IsStr p s) (hi : i ≤ s.length) :
    m.IsStr (p + i) (s.drop i) := by
  induction i generalizing p s with
  | zero => simpa using h
  | succ i ih =>
    cases s with
    | nil => simp at hi
    | cons b s =>
      obtain ⟨h1, h2, h3⟩ := isStr_cons.1 h
      rw [show p + (i + 1) = p + 1 + i by omega, List.drop_succ_cons]
      exact ih h3 (by simpa using hi)

theorem takeWhile_length_le {α} (f : α → Bool) (l : List α) : (l.takeWhile f).length ≤ l.length :=
  (List.takeWhile_sublist f).length_le

theorem strrchrLoop_cons_ne {m : Mem} {p ret : Nat} {b : Byte} (c : Int) (h1 : m p = some b)
    (h2 : b ≠ 0#8) (hb : b.toInt ≠ c) :
    strrchrLoop m p c ret = strrchrLoop m (p + 1) c ret := by
  conv => lhs; rw [strrchrLoop, strchrnul, load_some h1]
  conv => rhs; rw [strrchrLoop]
  simp only [Res.ok_bind]
  rw [if_pos h2, if_neg hb]

theorem strrchrLoop_cons_eq {m : Mem} {p ret : Nat} {b : Byte} (c : Int) (hp : p ≠ 0)
    (h1 : m p = some b) (h2 : b ≠ 0#8) (hb : b.toInt = c) :
    strrchrLoop m p c ret = strrchrLoop m (p + 1) c p := by
  conv => lhs; rw [strrchrLoop, strchrnul, load_some h1]
  simp only [Res.ok_bind, if_pos h2, if_pos hb, Res.pure_eq, if_pos hp, load_some h1]

theorem strrchrLoop_nil {m : Mem} {p ret : Nat} (c : Int) (h1 : m p = some 0#8) :
    strrchrLoop m p c ret = .ok ret := by
  rw [strrchrLoop, strchrnul, load_some h1]
  by_cases hp : p = 0
  · simp [hp]
  · simp [hp, load_some h1]

theorem strrchrLoop_eq {m : Mem} {p ret : Nat} {s : List Byte} (h : m.IsStr p s) (hp : p ≠ 0)
    (c : Int) :
    (∃ i, (∃ hi : i < s.length, s[i].toInt = c) ∧
        (∀ j (hj : j < s.length), i < j → s[j].toInt ≠ c) ∧
        strrchrLoop m p c ret = .ok (p + i)) ∨
    ((∀ b ∈ s, b.toInt ≠ c) ∧ strrchrLoop m p c ret = .ok ret) := by
  induction s generalizing p ret with
  | nil => right; exact ⟨by simp, strrchrLoop_nil c (isStr_nil.1 h)⟩
  | cons b s ih =>
    obtain ⟨h1, h2, h3⟩ := isStr_cons.1 h
    by_cases hb : b.toInt = c
    · left
      rw [strrchrLoop_cons_eq c hp h1 h2 hb]
      rcases @ih (p + 1) p h3 (by omega) with ⟨i, ⟨hi, e1⟩, e2, e3⟩ | ⟨e1, e2⟩
      · refine ⟨i + 1, ⟨by simpa using hi, by simpa using e1⟩, ?_, by rw [e3]; congr 1; omega⟩
        intro j hj hij
        cases j with
        | zero => omega
        | succ j => simpa using e2 j (by simpa using hj) (by omega)
      · refine ⟨0, ⟨by simp, by simpa using hb⟩, ?_, by rw [e2]; simp⟩
        intro j hj hij
        cases j with
        | zero => omega
        | succ j => simpa using e1 _ (List.getElem_mem (by simpa using hj))
    · rw [strrchrLoop_cons_ne c h1 h2 hb]
      rcases @ih (p + 1) ret h3 (by omega) with ⟨i, ⟨hi, e1⟩, e2, e3⟩ | ⟨e1, e2⟩
      · left
        refine ⟨i + 1, ⟨by simpa using hi, by simpa using e1⟩, ?_, by rw [e3]; congr 1; omega⟩
        intro j hj hij
        cases j with
        | zero => omega
        | succ j => simpa using e2 j (by simpa using hj) (by omega)
      · right
        refine ⟨?_, e2⟩
        intro x hx
        rcases List.mem_cons.1 hx with rfl | hx
        · exact hb
        · exact e1 x hx

theorem memberOf_eq {m : Mem} {q : Nat} {t : List Byte} (h : m.IsStr q t) (c : Byte) :
    memberOf m q c = .ok (decide (c ∈ t)) := by
  induction t generalizing q with
  | nil => rw [memberOf, load_some (isStr_nil.1 h)]; simp
  | cons b t ih =>
    obtain ⟨h1, h2, h3⟩ := isStr_cons.1 h
    rw [memberOf, load_some h1]
    simp only [Res.ok_bind]
    rw [if_pos h2]
    by_cases hb : b = c
    · simp [hb]
    · rw [if_neg hb, ih h3]; simp [Ne.symm hb]

theorem strcspnLoop_eq {m : Mem} {p q k : Nat} {s t : List Byte} (h : m.IsStr (p + k) s)
    (ht : m.IsStr q t) :
    strcspnLoop m p q (p + k) = .ok (k + (s.takeWhile (fun b => decide (b ∉ t))).length) := by
  induction s generalizing k with
  | nil => rw [strcspnLoop, load_some (isStr_nil.1 h)]; simp
  | cons b s ih =>
    obtain ⟨h1, h2, h3⟩ := isStr_cons.1 h
    rw [strcspnLoop, load_some h1]
    simp only [Res.ok_bind]
    rw [if_pos h2, memberOf_eq ht, Res.ok_bind]
    by_cases hb : b ∈ t
    · simp [hb]
    · rw [if_neg (by simpa using hb), Nat.add_assoc, ih (by rw [← Nat.add_assoc]; exact h3)]
      simp [hb]; omega

theorem and_or_of_mem {b : Byte} {l : List Byte} (h : b ∈ l) (acc : Byte) :
    b &&& l.foldl (· ||| ·) acc = b := by
  induction l generalizing acc with
  | nil => simp at h
  | cons x l ih =>
    simp only [List.foldl_cons]
    rcases List.mem_cons.1 h with rfl | h
    · have key : ∀ (k : List Byte) (y : Byte), b &&& y = b → b &&& k.foldl (· ||| ·) y = b := by
        intro k
        induction k with
        | nil => intro y hy; simpa using hy
        | cons z k ihk =>
          intro y hy
          apply ihk
          ext i hi
          have := congrArg (fun v => v.getLsbD i) hy
          simp at this
          simp
          intro hb; left; exact this hb
      apply key
      ext i hi; simp; intro hb; exact Or.inr hb
    · exact ih h _

theorem orMask_eq {m : Mem} {q : Nat} {t : List Byte} (h : m.IsStr q t) (acc : Byte) :
    orMask m q acc = .ok (t.foldl (· ||| ·) acc) := by
  induction t generalizing q acc with
  | nil => rw [orMask, load_some (isStr_nil.1 h)]; simp
  | cons b t ih =>
    obtain ⟨h1, h2, h3⟩ := isStr_cons.1 h
    rw [orMask, load_some h1]
    simp only [Res.ok_bind]
    rw [if_pos h2, ih h3]; simp

theorem strcspnOptLoop_eq {m : Mem} {p q k : Nat} {s t : List Byte} (h : m.IsStr (p + k) s)
    (ht : m.IsStr q t) :
    strcspnOptLoop m p q (t.foldl (· ||| ·) 0#8) (p + k) =
      .ok (k + (s.takeWhile (fun b => decide (b ∉ t))).length) := by
  induction s generalizing k with
  | nil => rw [strcspnOptLoop, load_some (isStr_nil.1 h)]; simp
  | cons b s ih =>
    obtain ⟨h1, h2, h3⟩ := isStr_cons.1 h
    have hrec := @ih (k + 1) (by rw [← Nat.add_assoc]; exact h3)
    rw [strcspnOptLoop, load_some h1]
    simp only [Res.ok_bind]
    rw [if_pos h2]
    by_cases hb : b ∈ t
    · rw [if_pos (by rw [and_or_of_mem hb]; exact h2), memberOf_eq ht, Res.ok_bind]
      simp [hb]
    · rw [memberOf_eq ht, Res.ok_bind, if_neg (show ¬ decide (b ∈ t) = true by simpa using hb)]
      rw [ite_self, Nat.add_assoc, hrec]
      simp [hb]; omega

/-- After a match the scan of the accept set continues at its second character: `acc` points into
the accept set at offset `j`, whose remaining characters are `t'`. -/
theorem strspnLoop_scan {m : Mem} {p q k j : Nat} {b : Byte} {t' : List Byte}
    (h1 : m (p + k) = some b) (h2 : b ≠ 0#8) (ht : m.IsStr (q + j) t') :
    strspnLoop m p q (p + k) (q + j) =
      if b ∈ t' then
        (do let y ← m.load (p + k + 1)
            if y ≠ 0#8 then
              let z ← m.load q
              if z ≠ 0#8 then strspnLoop m p q (p + k + 1) (q + 1) else pure (p + k + 1 - p)
            else pure (p + k + 1 - p))
      else .ok k := by
  induction t' generalizing j with
  | nil =>
    rw [isStr_nil] at ht
    rw [strspnLoop, load_some ht, load_some h1]
    simp only [Res.ok_bind]
    rw [if_neg (Ne.symm h2)]
    simp only [load_some h1, Res.ok_bind, if_pos h2, load_some ht]
    simp
  | cons x t' ih =>
    obtain ⟨g1, g2, g3⟩ := isStr_cons.1 ht
    rw [strspnLoop, load_some g1, load_some h1]
    simp only [Res.ok_bind]
    by_cases hx : x = b
    · subst hx; simp
    · rw [if_neg hx]
      simp only [load_some h1, Res.ok_bind, if_pos h2, load_some g1, if_pos g2]
      rw [Nat.add_assoc, ih (by rw [← Nat.add_assoc]; exact g3)]
      simp [Ne.symm hx]

theorem strspnLoop_tail {m : Mem} {p q k : Nat} {s t : List Byte} {x : Byte}
    (hs : m.IsStr (p + k) s) (hne : s ≠ []) (ht : m.IsStr q (x :: t)) :
    strspnLoop m p q (p + k) (q + 1) =
      .ok (k + (s.takeWhile (fun b => decide (b ∈ t))).length) := by
  induction s generalizing k with
  | nil => exact absurd rfl hne
  | cons b s ih =>
    obtain ⟨h1, h2, h3⟩ := isStr_cons.1 hs
    obtain ⟨g1, g2, g3⟩ := isStr_cons.1 ht
    rw [strspnLoop_scan h1 h2 g3]
    by_cases hb : b ∈ t
    · rw [if_pos hb]
      cases s with
      | nil =>
        rw [load_some (isStr_nil.1 h3)]
        simp [hb]; omega
      | cons c s =>
        obtain ⟨e1, e2, e3⟩ := isStr_cons.1 h3
        rw [load_some e1, Res.ok_bind, if_pos e2, load_some g1, Res.ok_bind, if_pos g2,
          Nat.add_assoc, ih (by rw [← Nat.add_assoc]; exact h3) (by simp)]
        simp [hb]; omega
    · simp [hb]

theorem strspn_eq {m : Mem} {p q : Nat} {s t : List Byte} (hs : m.IsStr p s) (ht : m.IsStr q t)
    (hne : ¬ (s = [] ∧ t = [])) :
    strspn m p q = .ok (match s with
      | [] => 0
      | b :: s' => if b ∈ t then 1 + (s'.takeWhile (fun c => decide (c ∈ t.tail))).length else 0) := by
  unfold strspn
  cases s with
  | nil =>
    cases t with
    | nil => simp at hne
    | cons x t =>
      obtain ⟨g1, g2, g3⟩ := isStr_cons.1 ht
      rw [isStr_nil] at hs
      rw [strspnLoop, load_some g1, load_some hs]
      simp only [Res.ok_bind]
      rw [if_neg g2]
      simp [load_some hs]
  | cons b s =>
    obtain ⟨h1, h2, h3⟩ := isStr_cons.1 hs
    have := @strspnLoop_scan m p q 0 0 b t (by simpa using h1) h2 (by simpa using ht)
    simp only [Nat.add_zero] at this
    rw [this]
    by_cases hb : b ∈ t
    · simp only [if_pos hb]
      cases t with
      | nil => simp at hb
      | cons x t =>
        obtain ⟨g1, g2, g3⟩ := isStr_cons.1 ht
        cases s with
        | nil => rw [load_some (isStr_nil.1 h3)]; simp
        | cons c s =>
          obtain ⟨e1, e2, e3⟩ := isStr_cons.1 h3
          rw [load_some e1, Res.ok_bind, if_pos e2, load_some g1, Res.ok_bind, if_pos g2,
            strspnLoop_tail h3 (by simp) ht]
          rfl
    · simp [hb]

/-! ### strstr -/

theorem strstrInner_eq {m : Mem} {s p : Nat} {a b : List Byte} {x y : Byte} (hs : m.IsStr (s + 1) a)
    (hp : m.IsStr (p + 1) b) (_h1 : m s = some x) (_h2 : m p = some y) :
    strstrInner m s p = .ok (decide (b <+: a)) := by
  induction b generalizing s p a x y with
  | nil => rw [strstrInner, load_some (isStr_nil.1 hp)]; simp
  | cons c b ih =>
    obtain ⟨g1, g2, g3⟩ := isStr_cons.1 hp
    rw [strstrInner, load_some g1]
    simp only [Res.ok_bind]
    rw [if_neg g2]
    cases a with
    | nil =>
      rw [load_some (isStr_nil.1 hs)]
      simp [Ne.symm g2]
    | cons d a =>
      obtain ⟨e1, e2, e3⟩ := isStr_cons.1 hs
      rw [load_some e1]
      simp only [Res.ok_bind]
      by_cases hd : d = c
      · subst hd
        rw [if_pos rfl, ih e3 g3 e1 g1]; simp
      · rw [if_neg hd]; simp [Ne.symm hd]

theorem strstrLoop_eq {m : Mem} {p q k : Nat} {s t : List Byte} (hs : m.IsStr (p + k) s)
    (hne : s ≠ []) (ht : m.IsStr q t) (htne : t ≠ []) :
    (∃ i, FirstOcc s t i ∧ strstrLoop m q (p + k) = .ok (p + k + i)) ∨
    ((∀ i, ¬ t <+: s.drop i) ∧ strstrLoop m q (p + k) = .ok 0) := by
  induction s generalizing k with
  | nil => exact absurd rfl hne
  | cons b s ih =>
    obtain ⟨h1, h2, h3⟩ := isStr_cons.1 hs
    cases t with
    | nil => exact absurd rfl htne
    | cons c t =>
      obtain ⟨g1, g2, g3⟩ := isStr_cons.1 ht
      have hhit : (if b = c then strstrInner m (p + k) q else pure false) =
          .ok (decide ((c :: t) <+: (b :: s))) := by
        by_cases hbc : b = c
        · subst hbc; rw [if_pos rfl, strstrInner_eq h3 g3 h1 g1]; simp
        · rw [if_neg hbc]; simp [Ne.symm hbc]
      have hstep : strstrLoop m q (p + k) =
          (if (c :: t) <+: (b :: s) then .ok (p + k)
           else do
            let b ← m.load (p + k + 1)
            if b ≠ 0#8 then strstrLoop m q (p + k + 1) else pure 0) := by
        rw [strstrLoop, load_some h1, load_some g1]
        simp only [Res.ok_bind]
        by_cases hbc : b = c
        · rw [if_pos hbc] at hhit
          rw [if_pos hbc, hhit, Res.ok_bind]
          by_cases hpre : (c :: t) <+: (b :: s)
          · simp [hpre]
          · simp [hpre]
        · have hpre : ¬ (c :: t) <+: (b :: s) := by simp [Ne.symm hbc]
          rw [if_neg hbc, if_neg hpre]; simp
      rw [hstep]
      by_cases hpre : (c :: t) <+: (b :: s)
      · left
        exact ⟨0, ⟨by simpa using hpre, by simp, by omega⟩, by rw [if_pos hpre]; simp⟩
      · rw [if_neg hpre]
        cases s with
        | nil =>
          right
          rw [load_some (isStr_nil.1 h3)]
          refine ⟨?_, by simp⟩
          intro i
          cases i with
          | zero => simpa using hpre
          | succ i => simp
        | cons d s =>
          obtain ⟨e1, e2, e3⟩ := isStr_cons.1 h3
          rw [load_some e1, Res.ok_bind, if_pos e2, Nat.add_assoc]
          rcases @ih (k + 1) (by rw [← Nat.add_assoc]; exact h3) (by simp) with
            ⟨i, ⟨f1, f2, f3⟩, f4⟩ | ⟨f1, f2⟩
          · left
            refine ⟨i + 1, ⟨by simpa using f1, by simpa using f2, ?_⟩, by rw [f4]; congr 1; omega⟩
            intro j hj
            cases j with
            | zero => simpa using hpre
            | succ j => simpa using f3 j (by omega)
          · right
            refine ⟨?_, f2⟩
            intro i
            cases i with
            | zero => simpa using hpre
            | succ i => simpa using f1 i

/-! ### strtok -/

theorem strtokHit_eq {m : Mem} {q : Nat} {t : List Byte} (h : m.IsStr q t) (c : Byte) :
    strtokHit m q c = .ok (decide (c ∈ t ∨ c = 0#8)) := by
  induction t generalizing q with
  | nil =>
    rw [strtokHit, load_some (isStr_nil.1 h)]
    simp only [Res.ok_bind]
    by_cases hc : c = 0#8
    · subst hc; simp
    · rw [if_neg (Ne.symm hc)]; simp [hc]
  | cons b t ih =>
    obtain ⟨h1, h2, h3⟩ := isStr_cons.1 h
    rw [strtokHit, load_some h1]
    simp only [Res.ok_bind]
    by_cases hb : b = c
    · rw [if_pos hb]; simp [hb]
    · rw [if_neg hb, if_pos h2, ih h3]; simp [Ne.symm hb]

theorem strtokSkip_eq {m : Mem} {p q : Nat} {s t : List Byte} (h : m.IsStr p s) (ht : m.IsStr q t) :
    strtokSkip m p q =
      (match s.dropWhile (fun b => decide (b ∈ t)) with
       | [] => .ok (0#8, p + s.length + 1)
       | b :: _ => .ok (b, p + (s.takeWhile (fun b => decide (b ∈ t))).length + 1)) := by
  induction s generalizing p with
  | nil =>
    have h0 : 0#8 ∉ t := fun hc => ht.2.2 _ hc rfl
    rw [strtokSkip, load_some (isStr_nil.1 h), Res.ok_bind, memberOf_eq ht]
    simp [h0]
  | cons b s ih =>
    obtain ⟨h1, h2, h3⟩ := isStr_cons.1 h
    rw [strtokSkip, load_some h1, Res.ok_bind, memberOf_eq ht, Res.ok_bind]
    by_cases hb : b ∈ t
    · rw [if_pos (by simpa using hb), ih h3]
      simp only [List.dropWhile_cons, hb, decide_true, if_true, List.takeWhile_cons, List.length_cons]
      split
      · congr 2; omega
      · congr 2; omega
    · simp [hb]

theorem strtokScan_eq {m : Mem} {p q : Nat} {s t : List Byte} (h : m.IsStr p s) (ht : m.IsStr q t) :
    strtokScan m p q =
      (match s.dropWhile (fun b => decide (b ∉ t)) with
       | [] => .ok (m, 0)
       | _ :: _ =>
         .ok (m.upd (p + (s.takeWhile (fun b => decide (b ∉ t))).length) 0#8,
              p + (s.takeWhile (fun b => decide (b ∉ t))).length + 1)) := by
  induction s generalizing p with
  | nil =>
    rw [strtokScan, load_some (isStr_nil.1 h), Res.ok_bind]
    simp only [strtokHit_eq ht]
    simp
  | cons b s ih =>
    obtain ⟨h1, h2, h3⟩ := isStr_cons.1 h
    rw [strtokScan, load_some h1, Res.ok_bind]
    simp only [strtokHit_eq ht, Res.ok_bind]
    by_cases hb : b ∈ t
    · simp only [hb, true_or, decide_true, if_true, if_neg h2, Nat.add_sub_cancel, store_some h1]
      simp [hb]
    · rw [if_neg (by simp [hb, h2]), ih h3]
      simp only [List.dropWhile_cons, hb, not_false_eq_true, decide_true, if_true,
        List.takeWhile_cons, List.length_cons]
      split
      · rfl
      · congr 2
        · congr 1; omega
        · omega

theorem piecesAux_ne {f : Byte → Bool} {s cur : List Byte} (hc : cur ≠ []) :
    piecesAux f s cur = (cur ++ s.takeWhile (fun b => !f b)) ::
      pieces f ((s.dropWhile (fun b => !f b)).tail) := by
  induction s generalizing cur with
  | nil => simp [piecesAux, pieces, hc]
  | cons b s ih =>
    by_cases hb : f b = true
    · simp [piecesAux, hb, hc, pieces]
    · simp only [Bool.not_eq_true] at hb
      rw [piecesAux, if_neg (by simp [hb]), ih (by simp)]
      simp [hb]

theorem pieces_eq (f : Byte → Bool) (s : List Byte) :
    pieces f s = (match s.dropWhile f with
      | [] => []
      | b :: s' => (b :: s'.takeWhile (fun b => !f b)) ::
          pieces f ((s'.dropWhile (fun b => !f b)).tail)) := by
  unfold pieces
  induction s with
  | nil => simp [piecesAux]
  | cons b s ih =>
    by_cases hb : f b = true
    · simp [piecesAux, hb, ih]
    · rw [piecesAux, if_neg hb, List.dropWhile_cons_of_neg hb, List.nil_append,
        piecesAux_ne (by simp)]
      rfl

/-- One call of `strtok_r` on a string. -/
theorem strtok_r_eq {m : Mem} {p q : Nat} {s t : List Byte} (a last : Nat)
    (ha : (if a = 0 then last else a) = p) (h : m.IsStr p s) (ht : m.IsStr q t) (hp : p ≠ 0) :
    strtok_r m a q last =
      (match s.dropWhile (fun b => decide (b ∈ t)) with
       | [] => .ok (m, 0, 0)
       | _ :: s' =>
         let k := p + (s.takeWhile (fun b => decide (b ∈ t))).length
         let e := k + 1 + (s'.takeWhile (fun b => decide (b ∉ t))).length
         match s'.dropWhile (fun b => decide (b ∉ t)) with
         | [] => .ok (m, k, 0)
         | _ :: _ => .ok (m.upd e 0#8, k, e + 1)) := by
  unfold strtok_r
  simp only [ha, if_neg hp]
  rw [strtokSkip_eq h ht]
  cases hd : s.dropWhile (fun b => decide (b ∈ t)) with
  | nil => simp
  | cons b s' =>
    have hsplit : s = s.takeWhile (fun b => decide (b ∈ t)) ++ (b :: s') := by
      rw [← hd]; exact List.takeWhile_append_dropWhile.symm
    have hbs : b ∈ s := by rw [hsplit]; simp
    have hb0 : b ≠ 0#8 := h.2.2 b hbs
    have hstr : m.IsStr (p + (s.takeWhile (fun b => decide (b ∈ t))).length) (b :: s') := by
      have := isStr_drop (i := (s.takeWhile (fun b => decide (b ∈ t))).length) h
        (takeWhile_length_le _ _)
      have e : s.drop (s.takeWhile (fun b => decide (b ∈ t))).length = b :: s' := by
        have h2 := List.drop_left (l₁ := s.takeWhile (fun b => decide (b ∈ t))) (l₂ := b :: s')
        rwa [← hsplit] at h2
      rwa [e] at this
    simp only [Res.ok_bind]
    rw [if_neg hb0, strtokScan_eq (isStr_cons.1 hstr).2.2 ht]
    cases s'.dropWhile (fun b => decide (b ∉ t)) with
    | nil => simp
    | cons c s'' => simp

theorem strtok_r_null {m : Mem} {q : Nat} : strtok_r m 0 q 0 = .ok (m, 0, 0) := by
  simp [strtok_r]

theorem strtokAll_aux {q : Nat} {t : List Byte} (n : Nat) :
    ∀ (m : Mem) (p a last : Nat) (s : List Byte), s.length ≤ n →
      (if a = 0 then last else a) = p → m.IsStr p s →
    m.IsStr q t → p ≠ 0 → Disjoint p (s.length + 1) q (t.length + 1) →
    ∃ m' ps, strtokAll m a q last = .ok (m', ps) ∧
      AllStr m' ps (pieces (fun b => decide (b ∈ t)) s) ∧
      (∀ a ∈ ps, p ≤ a ∧ a < p + s.length) ∧ ps.Pairwise (· < ·) ∧
      (∀ a, m' a = m a ∨ ∃ i, ∃ h : i < s.length, a = p + i ∧ s[i] ∈ t ∧ m' a = some 0#8) := by
  induction n with
  | zero =>
    intro m p a last s hn ha hs ht hp _
    have : s = [] := List.eq_nil_of_length_eq_zero (by omega)
    subst this
    refine ⟨m, [], ?_, by simp [pieces, piecesAux, AllStr], by simp, by simp, by simp⟩
    rw [strtokAll, strtok_r_eq a last ha hs ht hp]; simp
  | succ n ih =>
    intro m p a last s hn ha hs ht hp hdis
    rw [strtokAll, strtok_r_eq a last ha hs ht hp, pieces_eq]
    cases hd : s.dropWhile (fun b => decide (b ∈ t)) with
    | nil => exact ⟨m, [], by simp, by simp [AllStr], by simp, by simp, by simp⟩
    | cons b s' =>
      have hsplit : s = s.takeWhile (fun b => decide (b ∈ t)) ++ (b :: s') := by
        rw [← hd]; exact List.takeWhile_append_dropWhile.symm
      generalize hpre : s.takeWhile (fun b => decide (b ∈ t)) = pre at hsplit ⊢
      have hmid : s' = s'.takeWhile (fun b => decide (b ∉ t)) ++ s'.dropWhile (fun b => decide (b ∉ t)) :=
        List.takeWhile_append_dropWhile.symm
      have enot : (fun b : Byte => !decide (b ∈ t)) = fun b => decide (b ∉ t) := by
        funext b; simp
      simp only [enot]
      generalize s'.takeWhile (fun b => decide (b ∉ t)) = tk at hmid ⊢
      have hrest : ∀ c s'', s'.dropWhile (fun b => decide (b ∉ t)) = c :: s'' → c ∈ t := by
        intro c s'' e
        have := List.head?_dropWhile_not (fun b => decide (b ∉ t)) s'
        rw [e] at this; simpa using this
      generalize s'.dropWhile (fun b => decide (b ∉ t)) = rest at hmid hrest ⊢
      subst hmid
      have hstr : m.IsStr (p + pre.length) (b :: (tk ++ rest)) := by
        have := isStr_drop (i := pre.length) hs (by rw [hsplit]; simp)
        rw [hsplit] at this
        simpa using this
      have hk : p + pre.length ≠ 0 := by omega
      cases rest with
      | nil =>
        simp only [Res.ok_bind, if_neg hk]
        rw [strtokAll, strtok_r_null]
        refine ⟨m, [p + pre.length], by simp, ?_, ?_, by simp, by simp⟩
        · simp only [List.append_nil] at hstr
          simpa [AllStr, pieces, piecesAux] using hstr
        · intro a' ha'
          simp only [List.mem_singleton] at ha'
          subst ha'
          have := congrArg List.length hsplit
          simp at this
          omega
      | cons c s'' =>
        have hlen := congrArg List.length hsplit
        simp only [List.length_append, List.length_cons] at hlen
        simp only [Res.ok_bind, if_neg hk, List.tail_cons]
        have hc := hrest c s'' rfl
        have hsuf : m.IsStr (p + pre.length + 1 + tk.length + 1) s'' := by
          have := isStr_drop (i := 1 + tk.length + 1) hstr (by simp; omega)
          have e : List.drop (1 + tk.length + 1) (b :: (tk ++ c :: s'')) = s'' := by
            rw [show 1 + tk.length + 1 = (tk.length + 1) + 1 by omega, List.drop_succ_cons,
              ← List.drop_drop]
            simp
          rw [e] at this
          simpa [Nat.add_assoc] using this
        obtain ⟨m', ps, h1, h2, h3, h4, h5⟩ := ih (m.upd (p + pre.length + 1 + tk.length) 0#8)
          (p + pre.length + 1 + tk.length + 1) 0 (p + pre.length + 1 + tk.length + 1) s'' (by omega)
          (by simp) (hsuf.upd _ (by omega))
          (ht.upd _ (by
            have := hdis (p + pre.length + 1 + tk.length)
            omega))
          (by omega) (fun a' => by have := hdis a'; omega)
        have hlow : ∀ a', a' ≤ p + pre.length + 1 + tk.length →
            m' a' = (m.upd (p + pre.length + 1 + tk.length) 0#8) a' := by
          intro a' ha'
          rcases h5 a' with h | ⟨i, hi, h, _⟩
          · exact h
          · omega
        have hnil : m' (p + pre.length + 1 + tk.length) = some 0#8 := by
          rw [hlow _ (by omega)]; simp
        refine ⟨m', (p + pre.length) :: ps, by rw [h1]; rfl, ?_, ?_, ?_, ?_⟩
        · refine ⟨?_, h2⟩
          rw [isStr_iff] at hstr ⊢
          refine ⟨?_, fun x hx => hstr.2 x (by
            rcases List.mem_cons.1 hx with h | h
            · simp [h]
            · simp [h])⟩
          intro i hi
          simp only [List.length_append, List.length_cons, List.length_nil] at hi
          by_cases hlast : i = tk.length + 1
          · subst hlast
            rw [show p + pre.length + (tk.length + 1) = p + pre.length + 1 + tk.length by omega, hnil]
            simp
          · rw [hlow _ (by omega), upd_ne (by omega), hstr.1 i (by simp; omega)]
            congr 1
            cases i with
            | zero => simp
            | succ i =>
              simp only [List.cons_append, List.getElem_cons_succ]
              rw [List.getElem_append_left (by simp; omega), List.getElem_append_left (by omega),
                List.getElem_append_left (by omega)]
        · intro a' ha'
          rcases List.mem_cons.1 ha' with h | h
          · omega
          · have := h3 a' h; omega
        · refine List.pairwise_cons.2 ⟨fun a' ha' => ?_, h4⟩
          have := h3 a' ha'; omega
        · intro a'
          rcases h5 a' with h | ⟨i, hi, e, hmem, hz⟩
          · by_cases hx : a' = p + pre.length + 1 + tk.length
            · right
              refine ⟨pre.length + 1 + tk.length, by omega, by omega, ?_, by rw [hx]; exact hnil⟩
              have : s[pre.length + 1 + tk.length]? = some c := by
                rw [hsplit, List.getElem?_append_right (by omega),
                  show pre.length + 1 + tk.length - pre.length = tk.length + 1 by omega]
                simp
              rw [List.getElem?_eq_some_iff] at this
              obtain ⟨_, e⟩ := this
              rw [e]; exact hc
            · left; rw [h, upd_ne hx]
          · right
            refine ⟨pre.length + 1 + tk.length + 1 + i, by omega, by omega, ?_, hz⟩
            have : s[pre.length + 1 + tk.length + 1 + i]? = some s''[i] := by
              rw [hsplit, List.getElem?_append_right (by omega),
                show pre.length + 1 + tk.length + 1 + i - pre.length = (tk.length + (1 + i)) + 1 by omega,
                List.getElem?_cons_succ, List.getElem?_append_right (by omega),
                show tk.length + (1 + i) - tk.length = i + 1 by omega]
              simp
            obtain ⟨_, e'⟩ := List.getElem?_eq_some_iff.1 this
            rw [e']; exact hmem

theorem strtokAll_eq {m : Mem} {p q last : Nat} {s t : List Byte} (hs : m.IsStr p s)
    (ht : m.IsStr q t) (hp : p ≠ 0) (hdis : Disjoint p (s.length + 1) q (t.length + 1)) :
    ∃ m' ps, strtokAll m p q last = .ok (m', ps) ∧
      AllStr m' ps (pieces (fun b => decide (b ∈ t)) s) ∧
      (∀ a ∈ ps, p ≤ a ∧ a < p + s.length) ∧ ps.Pairwise (· < ·) ∧
      (∀ a, m' a = m a ∨ ∃ i, ∃ h : i < s.length, a = p + i ∧ s[i] ∈ t ∧ m' a = some 0#8) :=
  strtokAll_aux s.length m p p last s (Nat.le_refl _) (by simp [hp]) hs ht hp hdis

/-- The same with a length limit: also 1 when the limit is reached before both strings end. -/
def caseCmpN : Nat → List Byte → List Byte → Int
  | _, [], [] => 0
  | _, [], _ :: _ => 1
  | _, _ :: _, [] => 1
  | 0, _ :: _, _ :: _ => 1
  | n + 1, x :: a, y :: b =>
    if tolowerChar x > tolowerChar y then 1
    else if tolowerChar x < tolowerChar y then -1
    else caseCmpN n a b

theorem strncasecmpLoop_eq {m : Mem} {p q k n : Nat} {a b : List Byte} (ha : m.IsStr (p + k) a)
    (hb : m.IsStr (q + k) b) (hlen : k + n < 2147483648) :
    strcasecmpLoop m p q ((k + n : Nat) : Int) k = .ok (caseCmpN n a b) := by
  induction n generalizing k a b with
  | zero =>
    cases a with
    | nil =>
      rw [isStr_nil] at ha
      cases b with
      | nil =>
        rw [isStr_nil] at hb
        rw [strcasecmpLoop, load_some ha, load_some hb]; simp [caseCmpN]
      | cons y b =>
        obtain ⟨h1, h2, h3⟩ := isStr_cons.1 hb
        rw [strcasecmpLoop, load_some ha, load_some h1]
        simp only [Res.ok_bind, ne_eq, not_true_eq_false, if_false, h2]; rfl
    | cons x a =>
      obtain ⟨h1, h2, h3⟩ := isStr_cons.1 ha
      rw [strcasecmpLoop, load_some h1]
      simp only [Res.ok_bind]
      rw [if_pos h2]
      cases b with
      | nil =>
        rw [isStr_nil] at hb
        rw [load_some hb]; simp [caseCmpN]
      | cons y b =>
        obtain ⟨g1, g2, g3⟩ := isStr_cons.1 hb
        rw [load_some g1]
        simp only [Res.ok_bind]
        rw [if_neg (by simp)]
        rfl
  | succ n ih =>
    cases a with
    | nil =>
      rw [isStr_nil] at ha
      cases b with
      | nil =>
        rw [isStr_nil] at hb
        rw [strcasecmpLoop, load_some ha, load_some hb]; simp [caseCmpN]
      | cons y b =>
        obtain ⟨h1, h2, h3⟩ := isStr_cons.1 hb
        rw [strcasecmpLoop, load_some ha, load_some h1]
        simp only [Res.ok_bind, ne_eq, not_true_eq_false, if_false, h2]; rfl
    | cons x a =>
      obtain ⟨h1, h2, h3⟩ := isStr_cons.1 ha
      rw [strcasecmpLoop, load_some h1]
      simp only [Res.ok_bind]
      rw [if_pos h2]
      cases b with
      | nil =>
        rw [isStr_nil] at hb
        rw [load_some hb]; simp [caseCmpN]
      | cons y b =>
        obtain ⟨g1, g2, g3⟩ := isStr_cons.1 hb
        rw [load_some g1]
        simp only [Res.ok_bind]
        rw [if_pos ⟨g2, by omega⟩]
        have hrec := @ih (k + 1) a b (by rw [← Nat.add_assoc]; exact h3)
          (by rw [← Nat.add_assoc]; exact g3) (by omega)
        rw [show k + 1 + n = k + (n + 1) by omega] at hrec
        simp only [caseCmpN, incInt_ok (show k < 2147483647 by omega), Res.ok_bind, hrec]
        by_cases hxy : x = y
        · subst hxy; simp
        · simp only [ne_eq, hxy, not_false_eq_true, true_and]
          split
          · rfl
          · split
            · rfl
            · rfl

theorem caseCmpN_zero : ∀ {n : Nat} {a b : List Byte}, caseCmpN n a b = 0 ↔ a.map tolowerChar = b.map tolowerChar ∧ a.length ≤ n
  | _, [], [] => by simp [caseCmpN]
  | _, [], _ :: _ => by simp [caseCmpN]
  | _, _ :: _, [] => by simp [caseCmpN]
  | 0, _ :: _, _ :: _ => by simp [caseCmpN]
  | n + 1, x :: a, y :: b => by
    have ih := @caseCmpN_zero n a b
    simp only [caseCmpN, List.map_cons, List.cons.injEq, List.length_cons, Nat.add_le_add_iff_right]
    split
    · simp; omega
    · split
      · simp; omega
      · rw [ih]
        constructor
        · rintro ⟨h1, h2⟩; exact ⟨⟨by omega, h1⟩, h2⟩
        · rintro ⟨⟨_, h1⟩, h2⟩; exact ⟨h1, h2⟩

theorem caseCmpN_diff : ∀ {n : Nat} {c d : List Byte} {x y : Byte} {a b : List Byte}, c.map tolowerChar = d.map tolowerChar → c.length < n →
    tolowerChar x ≠ tolowerChar y → caseCmpN n (c ++ x :: a) (d ++ y :: b) = if tolowerChar x < tolowerChar y then -1 else 1
  | 0, _, _, _, _, _, _, _, h, _ => by omega
  | n + 1, [], [], x, y, a, b, _, _, h => by
    simp only [List.nil_append, caseCmpN]
    split
    · rw [if_neg (by omega)]
    · rw [if_pos (by omega), if_pos (by omega)]
  | n + 1, [], _ :: _, x, y, a, b, h, _, _ => by simp at h
  | n + 1, _ :: _, [], x, y, a, b, h, _, _ => by simp at h
  | n + 1, u :: c, v :: d, x, y, a, b, h, hl, hxy => by
    simp only [List.map_cons, List.cons.injEq, List.length_cons] at h hl
    simp only [List.cons_append, caseCmpN]
    rw [if_neg (by omega), if_neg (by omega)]
    exact caseCmpN_diff h.2 (by omega) hxy

theorem caseCmp_diff : ∀ {c d : List Byte} {x y : Byte} {a b : List Byte}, c.map tolowerChar = d.map tolowerChar →
    tolowerChar x ≠ tolowerChar y → caseCmp (c ++ x :: a) (d ++ y :: b) = if tolowerChar x < tolowerChar y then -1 else 1
  | [], [], x, y, a, b, _, h => by
    simp only [List.nil_append, caseCmp]
    split
    · rw [if_neg (by omega)]
    · rw [if_pos (by omega), if_pos (by omega)]
  | [], _ :: _, x, y, a, b, h, _ => by simp at h
  | _ :: _, [], x, y, a, b, h, _ => by simp at h
  | u :: c, v :: d, x, y, a, b, h, hxy => by
    simp only [List.map_cons, List.cons.injEq] at h
    simp only [List.cons_append, caseCmp]
    rw [if_neg (by omega), if_neg (by omega)]
    exact caseCmp_diff h.2 hxy

end Minilib

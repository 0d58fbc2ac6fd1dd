import Verif.Model.Atexit
import Verif.Spec.Atexit
/-
C47: atexit and the calls at exit.
-/

set_option autoImplicit false

namespace Minilib
open Spec

/-- A program's calls of `atexit`, one after the other: the table in the end and the answers. -/
def atexitAll (n : Nat) : List Nat → List Nat → Res (List Nat × List Int)
  | t, [] => .ok (t, [])
  | t, f :: fs => do
    let r ← atexit n t f
    let r2 ← atexitAll n r.1 fs
    pure (r2.1, r.2 :: r2.2)

/-- The table holds the stack `st` (last registered first). -/
def AtexitInv (n : Nat) (t st : List Nat) : Prop :=
  t.length = n ∧ (∀ f ∈ st, f ≠ 0) ∧ ∃ rest, t = st.reverse ++ rest ∧ (rest = [] ∨ ∃ r, rest = 0 :: r)

theorem atexitFree_eq {n : Nat} {t : List Nat} : ∀ {fs pre rest : List Nat}, t.length = n → t = pre ++ fs ++ rest → (∀ f ∈ fs, f ≠ 0) →
    (rest = [] ∨ ∃ r, rest = 0 :: r) → pre.length < n →
    atexitFree n t pre.length = .ok (if rest = [] then none else some (pre ++ fs).length)
  | [], pre, rest, hl, ht, _, hr, hn => by
    rcases hr with hr | ⟨r, hr⟩
    · subst hr; subst ht; simp at hl; omega
    · rw [atexitFree]
      have : t[pre.length]? = some 0 := by rw [ht, hr]; simp
      rw [this]; simp [hr]
  | f :: fs, pre, rest, hl, ht, hf, hr, hn => by
    rw [atexitFree]
    have : t[pre.length]? = some f := by rw [ht]; simp
    rw [this]
    have h1 : pre.length + (fs.length + 1) + rest.length = n := by rw [← hl, ht]; simp; omega
    simp only [ne_eq, hf f (by simp), not_false_eq_true, if_true]
    by_cases hc : pre.length + 1 ≥ n
    · rw [if_pos hc, if_pos (List.eq_nil_of_length_eq_zero (by omega))]
    · rw [if_neg hc]
      have h2 := atexitFree_eq (n := n) (t := t) (fs := fs) (pre := pre ++ [f]) (rest := rest) hl (by rw [ht]; simp)
        (fun g hg => hf g (by simp [hg])) hr (by simp; omega)
      simp only [List.length_append, List.length_cons, List.length_nil, Nat.zero_add] at h2
      rw [h2]
      simp only [List.length_append, List.length_cons]
      congr 3; omega

theorem atexit_step {n : Nat} {t st : List Nat} {f : Nat} (hn : 0 < n) (hf : f ≠ 0) (h : AtexitInv n t st) :
    ∃ t', atexit n t f = .ok (t', if (register n st f).2 then 0 else 12) ∧ AtexitInv n t' (register n st f).1 := by
  obtain ⟨h1, h2, rest, h3, h4⟩ := h
  have hfree := atexitFree_eq (pre := []) (fs := st.reverse) h1 (by simpa using h3) (by simpa using h2) h4 hn
  simp only [List.length_nil, List.nil_append, List.length_reverse] at hfree
  have hlen : st.length + rest.length = n := by rw [← h1, h3]; simp
  unfold atexit register
  rw [hfree]
  simp only [Res.ok_bind]
  rcases h4 with h4 | ⟨r, h4⟩
  · have hge : ¬ st.length < n := by rw [h4] at hlen; simp at hlen; omega
    simp only [if_pos h4, if_neg hge]
    exact ⟨t, rfl, h1, h2, rest, h3, Or.inl h4⟩
  · have hlt : st.length < n := by rw [h4] at hlen; simp at hlen; omega
    rw [if_neg (by rw [h4]; simp), if_pos hlt]
    refine ⟨_, rfl, ?_, by simpa using ⟨hf, h2⟩, ?_⟩
    · split <;> simp [h1]
    · have e1 : t.set st.length f = (f :: st).reverse ++ r := by
        rw [h3, h4, List.set_append_right _ _ (by simp)]
        simp
      rw [e1]
      by_cases hc : (st.length : Int) < (n : Int) - 1
      · rw [if_pos hc]
        match r, h4 with
        | [], h4 => rw [h4] at hlen; simp at hlen; omega
        | g :: r, h4 =>
          refine ⟨0 :: r, ?_, Or.inr ⟨r, rfl⟩⟩
          rw [List.set_append_right _ _ (by simp)]
          simp
      · rw [if_neg hc]
        refine ⟨r, rfl, Or.inl (List.eq_nil_of_length_eq_zero ?_)⟩
        rw [h4] at hlen; simp at hlen; omega

theorem atexitAll_eq {n : Nat} (hn : 0 < n) : ∀ {fs t st : List Nat}, (∀ f ∈ fs, f ≠ 0) → AtexitInv n t st →
    ∃ t', atexitAll n t fs = .ok (t', (registerAll n st fs).2.map (fun b => if b then 0 else 12)) ∧
      AtexitInv n t' (registerAll n st fs).1
  | [], t, st, _, h => ⟨t, rfl, h⟩
  | f :: fs, t, st, hf, h => by
    obtain ⟨t1, r1, r2⟩ := atexit_step (f := f) hn (hf f (by simp)) h
    obtain ⟨t2, r3, r4⟩ := atexitAll_eq (fs := fs) hn (fun g hg => hf g (by simp [hg])) r2
    refine ⟨t2, ?_, r4⟩
    rw [atexitAll, r1]
    simp only [Res.ok_bind]
    rw [r3]
    rfl

theorem exitCount_eq {n : Nat} {cells : List Nat} : ∀ {fs pre rest : List Nat}, cells = pre ++ fs ++ rest → (∀ f ∈ fs, f ≠ 0) →
    (pre ++ fs).length ≤ n + 1 → ((∃ r, rest = 0 :: r) ∨ ((pre ++ fs).length = n + 1 ∧ rest ≠ [])) →
    exitCount n cells pre.length = .ok (pre ++ fs).length
  | [], pre, rest, hc, _, hl, hr => by
    rw [exitCount]
    rcases hr with ⟨r, hr⟩ | ⟨h1, h2⟩
    · have : cells[pre.length]? = some 0 := by rw [hc, hr]; simp
      rw [this]; simp
    · obtain ⟨x, r, rfl⟩ := List.exists_cons_of_ne_nil h2
      have : cells[pre.length]? = some x := by rw [hc]; simp
      rw [this]
      simp only [List.append_nil] at h1 ⊢
      exact if_neg (by omega)
  | f :: fs, pre, rest, hc, hf, hl, hr => by
    rw [exitCount]
    have : cells[pre.length]? = some f := by rw [hc]; simp
    rw [this]
    have hl' := hl
    simp only [List.length_append, List.length_cons] at hl'
    have h2 := exitCount_eq (n := n) (cells := cells) (fs := fs) (pre := pre ++ [f]) (rest := rest) (by rw [hc]; simp)
      (fun g hg => hf g (by simp [hg])) (by simpa using hl) (by simpa using hr)
    simp only [List.length_append, List.length_cons, List.length_nil, Nat.zero_add] at h2
    simp only
    rw [if_pos ⟨hf f (by simp), by omega⟩, h2]
    simp only [List.length_append, List.length_cons]
    congr 1; omega

theorem exitCalls_eq {cells : List Nat} : ∀ (k : Nat), k ≤ cells.length → exitCalls cells k = .ok (cells.take k).reverse
  | 0, _ => by simp [exitCalls]
  | k + 1, h => by
    rw [exitCalls, List.getElem?_eq_getElem (show k < cells.length by omega)]
    simp only
    rw [exitCalls_eq k (by omega)]
    simp only [Res.ok_bind, Res.pure_eq]
    rw [List.take_add_one, List.getElem?_eq_getElem (show k < cells.length by omega)]
    rw [List.reverse_append]
    rfl

theorem exitRun_eq {n : Nat} {fs t behind : List Nat} (hf : ∀ f ∈ fs, f ≠ 0) (hl : fs.length ≤ n + 1) {rest : List Nat}
    (ht : t ++ behind = fs ++ rest) (hr : (∃ r, rest = 0 :: r) ∨ (fs.length = n + 1 ∧ rest ≠ [])) :
    exitRun n t behind = .ok fs.reverse := by
  unfold exitRun
  rw [ht]
  have hc := exitCount_eq (n := n) (cells := fs ++ rest) (pre := []) (fs := fs) (rest := rest) (by simp) hf (by simpa using hl)
    (by simpa using hr)
  simp only [List.length_nil, List.nil_append] at hc
  cases fs with
  | nil =>
    rcases hr with ⟨r, rfl⟩ | ⟨h, _⟩
    · rfl
    · simp at h
  | cons f fs =>
    simp only [List.cons_append, List.getElem?_cons_zero]
    rw [if_pos (hf f (by simp))]
    simp only [List.cons_append] at hc
    rw [hc]
    simp only [Res.ok_bind]
    rw [exitCalls_eq _ (by simp)]
    congr 2
    simp

/-- C47 in full: whatever the cells of the table and behind it held before, the answers and the calls at exit are those of
the stack. -/
def C47_full : Prop := ∀ (n : Nat) (t behind fs : List Nat), 0 < n → t.length = n → t[0]? = some 0 → (∀ f ∈ fs, f ≠ 0) →
  ∃ t', atexitAll n t fs = .ok (t', (registerAll n [] fs).2.map (fun b => if b then 0 else 12)) ∧
    exitRun n t' behind = .ok (registerAll n [] fs).1

theorem inv_start {n : Nat} {t : List Nat} (hl : t.length = n) (h0 : t[0]? = some 0) : AtexitInv n t [] := by
  refine ⟨hl, by simp, t, by simp, Or.inr ?_⟩
  cases t with
  | nil => simp at h0
  | cons a t => simp at h0; exact ⟨t, by rw [h0]⟩

/-- The stack never holds more than the limit. -/
theorem registerAll_length (n : Nat) : ∀ (fs st : List Nat), st.length ≤ n → (registerAll n st fs).1.length ≤ n
  | [], _, h => h
  | f :: fs, st, h => by
    rw [registerAll]
    refine registerAll_length n fs _ ?_
    unfold register
    split
    · simp; omega
    · exact h

/-- C47 (partial: the table is not full, or the program's `appdata`, which is behind the table, is NULL): every
registration is answered like that of a stack with at most `ATEXIT_MAX` handlers, and at exit exactly the registered
handlers are called, the last one first. -/
theorem C47_partial {n : Nat} {t fs : List Nat} (hn : 0 < n) (hl : t.length = n) (h0 : t[0]? = some 0) (hf : ∀ f ∈ fs, f ≠ 0) :
    ∃ t', atexitAll n t fs = .ok (t', (registerAll n [] fs).2.map (fun b => if b then 0 else 12)) ∧
      ∀ behind : List Nat, ((registerAll n [] fs).1.length < n ∨ behind[0]? = some 0) →
        exitRun n t' behind = .ok (registerAll n [] fs).1 := by
  obtain ⟨t', r1, h1, h2, rest, h3, h4⟩ := atexitAll_eq hn hf (inv_start hl h0)
  refine ⟨t', r1, fun behind hb => ?_⟩
  have hle := registerAll_length n fs [] (by simp)
  have hlen : (registerAll n [] fs).1.length + rest.length = n := by
    have := congrArg List.length h3
    simp at this; omega
  have := exitRun_eq (n := n) (t := t') (behind := behind) (fs := (registerAll n [] fs).1.reverse) (rest := rest ++ behind)
    (by simpa using h2) (by simp; omega) (by rw [h3]; simp) (by
      rcases h4 with h4 | ⟨r, h4⟩
      · rw [h4] at hlen
        simp at hlen
        rcases hb with hb | hb
        · omega
        · cases behind with
          | nil => simp at hb
          | cons a b => simp at hb; left; exact ⟨b, by rw [h4, hb]; rfl⟩
      · left; exact ⟨r ++ behind, by rw [h4]; rfl⟩)
  rw [this, List.reverse_reverse]

/-- What the stack holds in the end: the first `n` handlers, the last one first. -/
theorem registerAll_stack (n : Nat) : ∀ (fs st : List Nat), st.length ≤ n →
    (registerAll n st fs).1 = (fs.take (n - st.length)).reverse ++ st
  | [], st, _ => by simp [registerAll]
  | f :: fs, st, h => by
    rw [registerAll]
    unfold register
    by_cases hc : st.length < n
    · rw [if_pos hc, registerAll_stack n fs _ (by simp; omega)]
      obtain ⟨k, hk⟩ : ∃ k, n - st.length = k + 1 := ⟨n - st.length - 1, by omega⟩
      rw [hk, List.take_succ_cons, List.length_cons, show n - (st.length + 1) = k by omega]
      simp
    · rw [if_neg hc, registerAll_stack n fs _ h, show n - st.length = 0 by omega]
      simp

/-- C47 (partial as above), the order spelled out: with at most `ATEXIT_MAX - 1` registrations all of them work and the
calls at exit are the registrations, each once, in reverse order. -/
theorem C47_order_partial {n : Nat} {t fs : List Nat} (hl : t.length = n) (h0 : t[0]? = some 0) (hf : ∀ f ∈ fs, f ≠ 0)
    (hlt : fs.length < n) (behind : List Nat) :
    ∃ t' rs, atexitAll n t fs = .ok (t', rs) ∧ rs.length = fs.length ∧ (∀ r ∈ rs, r = 0) ∧ exitRun n t' behind = .ok fs.reverse := by
  have hst := registerAll_stack n fs [] (by simp)
  rw [List.length_nil, Nat.sub_zero, List.append_nil, List.take_of_length_le (by omega)] at hst
  obtain ⟨t', r1, r2⟩ := C47_partial (by omega) hl h0 hf
  have hall : ∀ (fs st : List Nat), st.length + fs.length < n → (registerAll n st fs).2 = List.replicate fs.length true := by
    intro fs
    induction fs with
    | nil => intro _ _; rfl
    | cons f fs ih =>
      intro st h
      simp only [List.length_cons] at h
      have e : register n st f = (f :: st, true) := if_pos (by omega)
      rw [registerAll, e]
      simp only [List.length_cons, List.replicate_succ]
      rw [ih (f :: st) (by simp; omega)]
  refine ⟨t', _, r1, by rw [hall fs [] (by simpa using hlt)]; simp, ?_, ?_⟩
  · rw [hall fs [] (by simpa using hlt)]
    simp
  · rw [r2 behind (Or.inl (by rw [hst]; simpa using hlt)), hst]

/-- C47 fails when the table is full: the word behind it, the program's `appdata` pointer, is called as a function. -/
theorem C47_appdata {n : Nat} {t fs : List Nat} (hn : 0 < n) (hl : t.length = n) (h0 : t[0]? = some 0) (hf : ∀ f ∈ fs, f ≠ 0)
    (hfull : n ≤ fs.length) {appdata x : Nat} {more : List Nat} (ha : appdata ≠ 0) :
    ∃ t' rs, atexitAll n t fs = .ok (t', rs) ∧
      exitRun n t' (appdata :: x :: more) = .ok (appdata :: (fs.take n).reverse) := by
  obtain ⟨t', r1, h1, h2, rest, h3, h4⟩ := atexitAll_eq hn hf (inv_start hl h0)
  refine ⟨t', _, r1, ?_⟩
  have hst := registerAll_stack n fs [] (by simp)
  rw [List.length_nil, Nat.sub_zero, List.append_nil] at hst
  rw [hst] at h2 h3
  rw [List.reverse_reverse] at h3
  have hrest : rest = [] := by
    apply List.eq_nil_of_length_eq_zero
    have := congrArg List.length h3
    simp at this; omega
  have := exitRun_eq (n := n) (t := t') (behind := appdata :: x :: more) (fs := fs.take n ++ [appdata]) (rest := x :: more)
    (by
      intro f hf'
      simp only [List.mem_append, List.mem_singleton] at hf'
      rcases hf' with hf' | rfl
      · exact hf f (List.mem_of_mem_take hf')
      · exact ha)
    (by simp; omega) (by rw [h3, hrest]; simp) (Or.inr ⟨by simp; omega, by simp⟩)
  rw [this]
  simp

theorem C47_refuted : ¬ C47_full := by
  intro h
  obtain ⟨t', h1, h2⟩ := h 8 [0, 7, 7, 7, 7, 7, 7, 7] [99, 1] [1, 2, 3, 4, 5, 6, 7, 8] (by decide) rfl rfl (by decide)
  obtain ⟨t2, rs, h3, h4⟩ := C47_appdata (n := 8) (t := [0, 7, 7, 7, 7, 7, 7, 7]) (fs := [1, 2, 3, 4, 5, 6, 7, 8]) (by decide) rfl rfl
    (by decide) (by decide) (appdata := 99) (x := 1) (more := []) (by decide)
  rw [h1] at h3
  simp only [Res.ok.injEq, Prod.mk.injEq] at h3
  rw [← h3.1, h2] at h4
  exact absurd h4 (by decide)

/-- Three handlers. -/
example : ∃ t' rs, atexitAll 8 [0, 7, 7, 7, 7, 7, 7, 7] [11, 12, 13] = .ok (t', rs) ∧ rs.length = 3 ∧ (∀ r ∈ rs, r = 0) ∧
    exitRun 8 t' [99, 1] = .ok [13, 12, 11] :=
  C47_order_partial (n := 8) (t := [0, 7, 7, 7, 7, 7, 7, 7]) (fs := [11, 12, 13]) rfl rfl (by decide) (by decide) _

/-- C47: a table for two functions: the third registration is refused with ENOMEM, and the two run in reverse order. -/
example : ∃ t', atexitAll 2 [0, 7] [11, 12, 13] = .ok (t', [0, 0, 12]) ∧ exitRun 2 t' [0] = .ok [12, 11] := by
  obtain ⟨t', h1, h2⟩ := C47_partial (n := 2) (t := [0, 7]) (fs := [11, 12, 13]) (by decide) rfl rfl (by decide)
  exact ⟨t', h1, h2 [0] (Or.inr rfl)⟩

end Minilib

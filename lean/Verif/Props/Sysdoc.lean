import Verif.Spec.Sysdoc
import Verif.Model.Sysdoc
/-
C123: system calls in the documentation.
-/

set_option autoImplicit false

namespace Minilib

open _root_.Spec

theorem takeWhile_true {q : Byte → Bool} {l : Line} {x : Byte} (h : x ∈ l.takeWhile q) : q x = true := by
  induction l with
  | nil => simp at h
  | cons b l ih =>
    rw [List.takeWhile_cons] at h
    split at h
    · rename_i hb
      rcases List.mem_cons.mp h with rfl | h
      · exact hb
      · exact ih h
    · simp at h

theorem reCount_some {l t : Line} (h : reCount l = some t) : ∃ b, l = 44#8 :: (b ++ 44#8 :: t) ∧ ∀ x ∈ b, reSpace x = true ∨ reDigit x = true := by
  cases l with
  | nil => cases h
  | cons a r =>
    rw [reCount] at h
    split at h
    · rename_i ha
      subst ha
      have e1 := List.takeWhile_append_dropWhile (p := reSpace) (l := r)
      have e2 := List.takeWhile_append_dropWhile (p := reDigit) (l := r.dropWhile reSpace)
      have e3 := List.takeWhile_append_dropWhile (p := reSpace) (l := (r.dropWhile reSpace).dropWhile reDigit)
      split at h
      · cases h
      · rename_i c t' e
        split at h
        · rename_i hc
          cases h
          subst hc
          refine ⟨r.takeWhile reSpace ++ ((r.dropWhile reSpace).takeWhile reDigit ++ ((r.dropWhile reSpace).dropWhile reDigit).takeWhile reSpace), ?_, ?_⟩
          · rw [List.append_assoc, List.append_assoc, ← e, e3, e2, e1]
          · intro x hx
            simp only [List.mem_append] at hx
            rcases hx with hx | hx | hx
            · exact Or.inl (takeWhile_true hx)
            · exact Or.inr (takeWhile_true hx)
            · exact Or.inl (takeWhile_true hx)
        · cases h
    · cases h

theorem space_or_digit {x : Byte} (h : reSpace x = true ∨ reDigit x = true) :
    x = 32#8 ∨ x = 9#8 ∨ x = 10#8 ∨ x = 12#8 ∨ x = 13#8 ∨ x = 11#8 ∨ 48 ≤ x.toNat ∧ x.toNat ≤ 57 := by
  rcases h with h | h
  · simp only [reSpace, Bool.or_eq_true, decide_eq_true_eq] at h
    rcases h with ((((h | h) | h) | h) | h) | h <;> simp [h]
  · simp only [reDigit, Bool.and_eq_true, decide_eq_true_eq] at h
    exact Or.inr (Or.inr (Or.inr (Or.inr (Or.inr (Or.inr h)))))

theorem reCount_bare {l s : Line} (h : NoBare l) (hs : s <:+ l) : reCount s = none := by
  cases e : reCount s with
  | none => rfl
  | some t =>
    obtain ⟨b, rfl, hb⟩ := reCount_some e
    obtain ⟨a, rfl⟩ := hs
    obtain ⟨x, hx, hn⟩ := h a b t rfl
    exact absurd (space_or_digit (hb x hx)) hn

theorem reSysName_none {l : Line} (h : ∀ s, s <:+ l → reCount s = none) : reSysName l = none := by
  induction l with
  | nil => rfl
  | cons b r ih =>
    rw [reSysName, ih (fun s hs => h s (hs.trans (List.suffix_cons b r))), h _ List.suffix_rfl]
    split <;> simp_all

theorem reSysName_skip {m t : Line} (hm : 44#8 ∉ m) (h : ∀ s, s <:+ t → reCount s = none) : reSysName (m ++ t) = none := by
  induction m with
  | nil => exact reSysName_none h
  | cons b m ih =>
    simp only [List.mem_cons, not_or] at hm
    have hc : reCount (b :: (m ++ t)) = none := by rw [reCount, if_neg (fun e => hm.1 e.symm)]
    rw [List.cons_append, reSysName, ih hm.2, hc]
    split <;> simp_all

theorem reSysName_name {n m t : Line} (hn : NameBytes n) (hc : 44#8 ∉ n) (hm : 44#8 ∉ m) (hd : reCount (44#8 :: (m ++ 44#8 :: t)) = some t)
    (h : ∀ s, s <:+ 44#8 :: t → reCount s = none) : reSysName (n ++ 44#8 :: (m ++ 44#8 :: t)) = some (n, t) := by
  induction n with
  | nil =>
    rw [List.nil_append, reSysName, reSysName_skip hm h, hd]
    rfl
  | cons b n ih =>
    have hb : reSpace b = false := by
      have := hn b (by simp)
      simp [reSpace, this]
    rw [List.cons_append, reSysName, hb, ih (fun c hc => hn c (by simp [hc])) (fun e => hc (by simp [e]))]
    rfl

theorem dropWhile_front_all {q : Byte → Bool} {m t : Line} (h : ∀ b ∈ m, q b = true) : (m ++ t).dropWhile q = t.dropWhile q := by
  induction m with
  | nil => rfl
  | cons b m ih => rw [List.cons_append, List.dropWhile_cons, if_pos (h b (by simp)), ih (fun c hc => h c (by simp [hc]))]

theorem digit_space {b : Byte} (h : 48 ≤ b.toNat ∧ b.toNat ≤ 57) : reSpace b = false := by
  have : ∀ k : Nat, k < 48 → b ≠ BitVec.ofNat 8 k := by
    intro k hk e
    have e2 := congrArg BitVec.toNat e
    simp only [BitVec.toNat_ofNat] at e2
    omega
  simp only [reSpace, Bool.or_eq_false_iff, decide_eq_false_iff_not]
  exact ⟨⟨⟨⟨⟨this 32 (by omega), this 9 (by omega)⟩, this 10 (by omega)⟩, this 12 (by omega)⟩, this 13 (by omega)⟩, this 11 (by omega)⟩

theorem reCount_def (i j : Nat) {c t : Line} (hc : ∀ b ∈ c, 48 ≤ b.toNat ∧ b.toNat ≤ 57) :
    reCount (44#8 :: (List.replicate i 32#8 ++ (c ++ (List.replicate j 32#8 ++ 44#8 :: t)))) = some t := by
  have hr : ∀ k, ∀ b ∈ List.replicate k 32#8, reSpace b = true := by
    intro k b hb
    rw [List.eq_of_mem_replicate hb]
    decide
  have hcomma : ((44#8 :: t).dropWhile reSpace) = 44#8 :: t := by rw [List.dropWhile_cons, if_neg (by decide)]
  have hcomma2 : ((44#8 :: t).dropWhile reDigit) = 44#8 :: t := by rw [List.dropWhile_cons, if_neg (by decide)]
  have e : (((List.replicate i 32#8 ++ (c ++ (List.replicate j 32#8 ++ 44#8 :: t))).dropWhile reSpace).dropWhile reDigit).dropWhile reSpace = 44#8 :: t := by
    rw [dropWhile_front_all (hr i)]
    cases c with
    | nil => rw [List.nil_append, dropWhile_front_all (hr j), hcomma, hcomma2, hcomma]
    | cons b c =>
      have hd : ∀ x ∈ b :: c, reDigit x = true := fun x hx => by
        have := hc x hx
        simp [reDigit, this]
      have h1 : ((b :: c) ++ (List.replicate j 32#8 ++ 44#8 :: t)).dropWhile reSpace = (b :: c) ++ (List.replicate j 32#8 ++ 44#8 :: t) := by
        rw [List.cons_append, List.dropWhile_cons, if_neg (by rw [digit_space (hc b (by simp))]; decide)]
      rw [h1, dropWhile_front_all hd]
      cases j with
      | zero => rw [List.replicate_zero, List.nil_append, hcomma2, hcomma]
      | succ j =>
        have h2 : (List.replicate (j + 1) 32#8 ++ 44#8 :: t).dropWhile reDigit = List.replicate (j + 1) 32#8 ++ 44#8 :: t := by
          rw [List.replicate_succ, List.cons_append, List.dropWhile_cons, if_neg (by decide)]
        rw [h2, dropWhile_front_all (hr _), hcomma]
  rw [reCount, if_pos rfl, e]
  simp

/-- C123: a system call is registered under its name, and shown by the name and the parameters, if none of these is empty or a number. Missing: calls
without parameters, for which it fails. -/
theorem C123_shown_partial {d : SysDef} (h : d.Fair) (hb : NoBare (44#8 :: d.params)) : sysDoc d.text = d.shown ∧ sysRegister d.text = some d.name := by
  obtain ⟨hn, hc, hd⟩ := h
  have hm : 44#8 ∉ List.replicate d.before 32#8 ++ (d.count ++ List.replicate d.behind 32#8) := by
    simp only [List.mem_append, List.mem_replicate, not_or]
    refine ⟨fun e => absurd e.2 (by decide), fun e => ?_, fun e => absurd e.2 (by decide)⟩
    have := hd _ e
    exact absurd this.1 (by decide)
  have key := reSysName_name hn hc hm (t := d.params) (by
    rw [List.append_assoc, List.append_assoc]
    exact reCount_def _ _ hd) (fun s hs => reCount_bare hb hs)
  rw [List.append_assoc, List.append_assoc] at key
  constructor
  · unfold SysDef.text SysDef.shown
    generalize d.name ++ 44#8 :: _ = x at key ⊢
    show sysDoc (68#8 :: ([69, 70, 95, 115, 121, 115, 99, 97, 108, 108] ++ 40#8 :: x)) = _
    rw [sysDoc]
    have b1 : begins [68, 69, 70, 95, 115, 121, 115, 99, 97, 108, 108] (68#8 :: ([69, 70, 95, 115, 121, 115, 99, 97, 108, 108] ++ 40#8 :: x)) = true := rfl
    have b2 : (68#8 :: ([69, 70, 95, 115, 121, 115, 99, 97, 108, 108] ++ 40#8 :: x)).drop 11 = 40#8 :: x := rfl
    have b3 : (68#8 :: ([69, 70, 95, 115, 121, 115, 99, 97, 108, 108] ++ 40#8 :: x)).drop 12 = x := rfl
    rw [b1, b2, b3, if_pos ⟨rfl, by simp⟩, key]
  · unfold SysDef.text sysRegister
    generalize List.replicate d.before 32#8 ++ _ = x
    have b1 : begins [68, 69, 70, 95, 115, 121, 115, 99, 97, 108, 108] ([68, 69, 70, 95, 115, 121, 115, 99, 97, 108, 108] ++ 40#8 :: (d.name ++ 44#8 :: x)) = true := rfl
    have b2 : ([68, 69, 70, 95, 115, 121, 115, 99, 97, 108, 108] ++ 40#8 :: (d.name ++ 44#8 :: x)).drop 11 = 40#8 :: (d.name ++ 44#8 :: x) := rfl
    have b3 : ([68, 69, 70, 95, 115, 121, 115, 99, 97, 108, 108] ++ 40#8 :: (d.name ++ 44#8 :: x)).drop 12 = d.name ++ 44#8 :: x := rfl
    have tw : (d.name ++ 44#8 :: x).takeWhile (· ≠ 44#8) = d.name := by
      rw [List.takeWhile_append_of_pos (by
        intro b hb
        simp only [decide_eq_true_eq]
        exact fun e => hc (e ▸ hb))]
      simp
    rw [b1, b2, b3, tw, if_pos ⟨rfl, by simp, by simp, by
      simp only [List.contains_iff_mem]
      exact fun e => (hn _ e).2.2.1 rfl⟩]

theorem reCount_two {l t : Line} (h : reCount l = some t) : 2 ≤ l.count 44#8 := by
  obtain ⟨b, rfl, -⟩ := reCount_some h
  rw [List.count_cons_self, List.count_append, List.count_cons_self]
  omega

theorem reSysName_two {l : Line} {p : Line × Line} (h : reSysName l = some p) : 2 ≤ l.count 44#8 := by
  by_cases hl : 2 ≤ l.count 44#8
  · exact hl
  · rw [reSysName_none] at h
    · cases h
    · intro s hs
      cases e : reCount s with
      | none => rfl
      | some t => exact absurd (Nat.le_trans (reCount_two e) (hs.sublist.count_le _)) hl

/-- C123: lines with less than two commas are shown as they are. -/
theorem C123_one_comma {l : Line} (h : l.count 44#8 ≤ 1) : sysDoc l = l := by
  induction l with
  | nil => rfl
  | cons b r ih =>
    have h2 : (r.count 44#8) ≤ 1 := Nat.le_trans ((List.sublist_cons_self b r).count_le _) h
    rw [sysDoc, ih h2]
    split
    · rename_i p e
      split at e
      · have := reSysName_two e
        have := ((List.drop_sublist 12 (b :: r)).count_le (a := 44#8))
        omega
      · cases e
    · rfl

/-- C123, for calls without parameters, too. -/
def C123_full : Prop := ∀ (n c t : Line), NameBytes n → 44#8 ∉ n → (∀ b ∈ c, 48 ≤ b.toNat ∧ b.toNat ≤ 57) → 44#8 ∉ t →
  sysDoc ([68, 69, 70, 95, 115, 121, 115, 99, 97, 108, 108] ++ 40#8 :: (n ++ 44#8 :: (c ++ 41#8 :: t))) = n ++ 40#8 :: 41#8 :: t

/-- C123 fails for every call without parameters: the definition itself is shown, as `DEF_syscall(sync,0)` (doc/minilib.txt:205). -/
theorem C123_noparams_refuted {n c t : Line} (hn : 44#8 ∉ n) (hc : 44#8 ∉ c) (ht : 44#8 ∉ t) :
    sysDoc ([68, 69, 70, 95, 115, 121, 115, 99, 97, 108, 108] ++ 40#8 :: (n ++ 44#8 :: (c ++ 41#8 :: t))) = [68, 69, 70, 95, 115, 121, 115, 99, 97, 108, 108] ++ 40#8 :: (n ++ 44#8 :: (c ++ 41#8 :: t)) := by
  apply C123_one_comma
  have e : List.count 44#8 (([68, 69, 70, 95, 115, 121, 115, 99, 97, 108, 108] : Line) ++ 40#8 :: (n ++ 44#8 :: (c ++ 41#8 :: t))) = 1 := by
    simp only [List.count_append, List.count_cons, List.count_eq_zero_of_not_mem hn, List.count_eq_zero_of_not_mem hc, List.count_eq_zero_of_not_mem ht]
    decide
  exact Nat.le_of_eq e

theorem C123_refuted : ¬ C123_full := by
  intro h
  have := h [102] [48] [] (by unfold NameBytes; decide) (by decide) (by decide) (by decide)
  rw [C123_noparams_refuted (by decide) (by decide) (by decide)] at this
  exact absurd this (by decide)

/-- C123 fails for parameters that are numbers: the first one is taken for the count, `DEF_syscall(f,1,2,` is shown as `f,1(`. -/
theorem C123_number_refuted : sysDoc ([68, 69, 70, 95, 115, 121, 115, 99, 97, 108, 108] ++ [40, 102, 44, 49, 44, 50, 44, 97, 41]) = [102, 44, 49, 40, 97, 41] := by
  decide +kernel

/-- C123: `DEF_syscall(close, 1, int fd )`, include/syscall_stubs.h:103. -/
example : sysDoc (SysDef.mk [99, 108, 111, 115, 101] 1 [49] 0 [32, 105, 110, 116, 32, 102, 100, 32, 41]).text = [99, 108, 111, 115, 101] ++ 40#8 :: [32, 105, 110, 116, 32, 102, 100, 32, 41] ∧ sysRegister (SysDef.mk [99, 108, 111, 115, 101] 1 [49] 0 [32, 105, 110, 116, 32, 102, 100, 32, 41]).text = some [99, 108, 111, 115, 101] :=
  C123_shown_partial (d := SysDef.mk [99, 108, 111, 115, 101] 1 [49] 0 [32, 105, 110, 116, 32, 102, 100, 32, 41]) ⟨by unfold NameBytes; decide +kernel, by decide, by decide⟩ (by
    intro a b c e
    exfalso
    have := congrArg (List.count 44#8) e
    have h1 : List.count 44#8 (44#8 :: (SysDef.mk [99, 108, 111, 115, 101] 1 [49] 0 [32, 105, 110, 116, 32, 102, 100, 32, 41]).params) = 1 := by decide +kernel
    rw [h1, List.count_append, List.count_cons_self, List.count_append, List.count_cons_self] at this
    omega)

end Minilib

import Verif.Lemmas.Conv
/-
Lemmas about ultodec.
-/

set_option autoImplicit false

namespace Minilib
open Mem Spec

theorem ultodecDigit_eq {l : Nat} (hl : 1 ≤ l) (ui b : Nat) :
    ultodecDigit ui l b = .ok (b + ui / l, ui % l) := by
  induction ui using Nat.strongRecOn generalizing b with
  | _ ui ih =>
    rw [ultodecDigit]
    by_cases h : l ≤ ui
    · rw [if_pos h, ih _ (by omega)]
      have h1 : ui / l = (ui - l) / l + 1 := by rw [Nat.div_eq_sub_div hl h]
      have h2 : ui % l = (ui - l) % l := Nat.mod_eq_sub_mod h
      rw [h1, h2]
      simp; omega
    · rw [if_neg h, Nat.div_eq_of_lt (by omega), Nat.mod_eq_of_lt (by omega)]; rfl

theorem pow_le_19 {k : Nat} (hk : k ≤ 19) : 10 ^ k ≤ 10000000000000000000 := by
  calc 10 ^ k ≤ 10 ^ 19 := Nat.pow_le_pow_right (by omega) hk
    _ = _ := by norm_num

theorem bmod_sub {ui l : Nat} (h1 : ui < 10 * l) (h2 : l ≤ 1000000000000000000) :
    (Int.bmod ((ui : Int) - l) 18446744073709551616 ≥ 0) ↔ l ≤ ui := by
  have : Int.bmod ((ui : Int) - l) 18446744073709551616 = (ui : Int) - l := by
    rw [Int.bmod_def]; split <;> omega
  rw [this]; omega

theorem pow_div_ten (k : Nat) : 10 ^ (k + 1) / 10 = 10 ^ k := by
  rw [Nat.pow_succ]; exact Nat.mul_div_cancel _ (by omega)

/-- One position of the loop with a digit to be written. -/
theorem ultodecLoop_step {prec : Int} {lim : Byte} {k : Nat} (hk : k < 19) {m : Mem} {buf ui : Nat}
    {a : Bool} {c : Int} (hui : ui < 10 ^ (k + 1)) (ha : a = true ∨ ((k + 1 : Nat) : Int) ≤ prec ∨ 10 ^ k ≤ ui)
    (hrest : ∀ {m : Mem} {buf : Nat} {c : Int},
      m.Mapped buf (sep lim (dtxt (fixDigits 10 k ui))).length →
      ultodecLoop prec lim m buf (ui % 10 ^ k) (10 ^ k / 10) k true c
        = .ok (m.write buf (sep lim (dtxt (fixDigits 10 k ui))),
            buf + (sep lim (dtxt (fixDigits 10 k ui))).length,
            c + (sep lim (dtxt (fixDigits 10 k ui))).length))
    (hm : m.Mapped buf (sep lim (dtxt (fixDigits 10 (k + 1) ui))).length) :
    ultodecLoop prec lim m buf ui (10 ^ (k + 1) / 10) (k + 1) a c
      = .ok (m.write buf (sep lim (dtxt (fixDigits 10 (k + 1) ui))),
          buf + (sep lim (dtxt (fixDigits 10 (k + 1) ui))).length,
          c + (sep lim (dtxt (fixDigits 10 (k + 1) ui))).length) := by
  have hq : ui / 10 ^ k < 10 := by
    rw [Nat.div_lt_iff_lt_mul (Nat.pow_pos (by omega))]; rw [Nat.pow_succ] at hui; omega
  have hk19 : 10 ^ k ≤ 1000000000000000000 := by
    calc 10 ^ k ≤ 10 ^ 18 := Nat.pow_le_pow_right (by omega) (by omega)
      _ = _ := by norm_num
  have hcond : ((if ((k + 1 : Nat) : Int) ≤ prec then true else a) = true ∨
      Int.bmod ((ui : Int) - (10 ^ k : Nat)) 18446744073709551616 ≥ 0) := by
    rcases ha with ha | ha | ha
    · left; simp [ha]
    · left; rw [if_pos ha]
    · right; exact (bmod_sub (by rw [Nat.pow_succ] at hui; omega) hk19).2 ha
  rw [ultodecLoop, pow_div_ten, if_pos (by omega)]
  simp only
  rw [if_pos hcond, ultodecDigit_eq (Nat.pow_pos (by omega))]
  simp only [Res.ok_bind, Nat.zero_add, ← digitChar_lt hq, Nat.add_sub_cancel]
  simp only [fixDigits, dtxt_cons, sep, dtxt_length, fixDigits_length, Nat.mod_eq_of_lt hq] at hm ⊢
  by_cases h3 : lim ≠ 0#8 ∧ (k + 1) % 3 = 0
  · rw [if_pos h3] at hm ⊢
    rw [if_pos h3]
    obtain ⟨hs, hm1⟩ := store_step hm lim
    obtain ⟨hs2, hm2⟩ := store_step hm1 (digitChar false (ui / 10 ^ k))
    rw [hs]
    simp only [Res.ok_bind]
    rw [hs2]
    simp only [Res.ok_bind]
    rw [show buf + 2 = buf + 1 + 1 by omega, hrest hm2]
    simp [write_cons]; omega
  · rw [if_neg h3] at hm ⊢
    rw [if_neg h3]
    simp only [List.nil_append] at hm ⊢
    obtain ⟨hs2, hm2⟩ := store_step hm (digitChar false (ui / 10 ^ k))
    rw [hs2]
    simp only [Res.ok_bind]
    rw [hrest hm2]
    simp [write_cons]; omega

theorem ultodecLoop_all {prec : Int} {lim : Byte} {k : Nat} (hk : k ≤ 19) :
    ∀ {m : Mem} {buf ui : Nat} {c : Int}, ui < 10 ^ k →
      m.Mapped buf (sep lim (dtxt (fixDigits 10 k ui))).length →
      ultodecLoop prec lim m buf ui (10 ^ k / 10) k true c
        = .ok (m.write buf (sep lim (dtxt (fixDigits 10 k ui))),
            buf + (sep lim (dtxt (fixDigits 10 k ui))).length,
            c + (sep lim (dtxt (fixDigits 10 k ui))).length) := by
  induction k with
  | zero => intro m buf ui c _ _; rw [ultodecLoop]; simp [fixDigits, sep]
  | succ k ih =>
    intro m buf ui c hui hm
    refine ultodecLoop_step (by omega) hui (Or.inl rfl) ?_ hm
    intro m buf c hm
    have hmod := @fixDigits_mod 10 k ui k (le_refl _)
    have := @ih (by omega) m buf (ui % 10 ^ k) c (Nat.mod_lt _ (Nat.pow_pos (by omega)))
      (by rw [hmod]; exact hm)
    rwa [hmod] at this

theorem ultodecLoop_skip {prec : Int} {lim : Byte} {k : Nat} (hk : k ≤ 19) (hp : prec ≤ k) :
    ∀ {m : Mem} {buf ui : Nat} {c : Int}, ui < 10 ^ k →
      m.Mapped buf (sep lim (dtxt (fixDigits 10 (max prec.toNat (nd 10 ui)) ui))).length →
      ultodecLoop prec lim m buf ui (10 ^ k / 10) k false c
        = .ok (m.write buf (sep lim (dtxt (fixDigits 10 (max prec.toNat (nd 10 ui)) ui))),
            buf + (sep lim (dtxt (fixDigits 10 (max prec.toNat (nd 10 ui)) ui))).length,
            c + (sep lim (dtxt (fixDigits 10 (max prec.toNat (nd 10 ui)) ui))).length) := by
  induction k with
  | zero =>
    intro m buf ui c hui _
    have h0 : ui = 0 := by simpa using hui
    have : max prec.toNat (nd 10 ui) = 0 := by simp [h0, nd]; omega
    rw [ultodecLoop, this]; simp [fixDigits, sep]
  | succ k ih =>
    intro m buf ui c hui hm
    by_cases ha : ((k + 1 : Nat) : Int) ≤ prec ∨ 10 ^ k ≤ ui
    · have hW : max prec.toNat (nd 10 ui) = k + 1 := by
        have h2 := @nd_le 10 (k + 1) ui (by omega) hui
        rcases ha with ha | ha
        · omega
        · have := nd_big (by omega) ha hui; omega
      rw [hW] at hm ⊢
      refine ultodecLoop_step (by omega) hui (Or.inr ha) ?_ hm
      intro m buf c hm
      have hmod := @fixDigits_mod 10 k ui k (le_refl _)
      have := @ultodecLoop_all prec lim k (by omega) m buf (ui % 10 ^ k) c
        (Nat.mod_lt _ (Nat.pow_pos (by omega))) (by rw [hmod]; exact hm)
      rwa [hmod] at this
    · have hk19 : 10 ^ k ≤ 1000000000000000000 := by
        calc 10 ^ k ≤ 10 ^ 18 := Nat.pow_le_pow_right (by omega) (by omega)
          _ = _ := by norm_num
      rw [ultodecLoop, pow_div_ten, if_pos (by omega)]
      simp only
      rw [if_neg (show ¬ ((k + 1 : Nat) : Int) ≤ prec by omega), if_neg, Nat.add_sub_cancel]
      · exact ih (by omega) (by omega) (by omega) hm
      · rw [bmod_sub (by rw [Nat.pow_succ] at hui; omega) hk19]
        simp; omega

theorem ultodecEnd_eq {m : Mem} {buf : Nat} {out : List Byte} {c : Int}
    (hm : m.Mapped buf (out.length + 1)) :
    ultodecEnd (m.write buf out, buf + out.length, c) = .ok (m.write buf (out ++ [0#8]), c) := by
  unfold ultodecEnd
  obtain ⟨b, hc⟩ := (hm.write buf out) out.length (by omega)
  simp only [store_some hc, Res.ok_bind, Res.pure_eq]
  rw [write_append, write_singleton]

/-- Everything below 10^19 with a precision up to 19. -/
theorem ultodec_small {m : Mem} {ui buf : Nat} {prec : Int} {lim : Byte}
    (h : ui < 10000000000000000000) (hp : prec ≤ 19) {out : List Byte}
    (ho : out = sep lim (dtxt (fixDigits 10 (max prec.toNat (nd 10 ui)) ui)))
    (hm : m.Mapped buf (out.length + 1)) :
    ultodec m ui buf prec lim = .ok (m.write buf (out ++ [0#8]), out.length) := by
  unfold ultodec
  rw [if_neg (by omega), if_neg (by omega)]
  have := @ultodecLoop_skip prec lim 19 (by omega) (by omega) m buf ui 0 (by norm_num; omega)
    (by rw [← ho]; exact hm.mono (by omega))
  rw [← ho] at this
  rw [show (1000000000000000000 : Nat) = 10 ^ 19 / 10 by norm_num, this]
  simp only [Res.ok_bind]
  rw [ultodecEnd_eq hm]; simp

/-- Twenty digit numbers, and a precision of 20 or more. -/
theorem ultodec_big {m : Mem} {ui buf : Nat} {prec : Int} {lim : Byte}
    (h : 10000000000000000000 ≤ ui ∨ 20 ≤ prec) (h2 : ui < 18446744073709551616) {out : List Byte}
    (ho : out = group lim (dtxt (fixDigits 10 20 ui)))
    (hm : m.Mapped buf (out.length + 1)) :
    ultodec m ui buf prec lim = .ok (m.write buf (out ++ [0#8]), out.length) := by
  have key : ∀ u : Nat, u % 10 ^ 19 = ui % 10 ^ 19 → u < 10 ^ 19 → ∀ d : Byte,
      d = digitChar false (ui / 10 ^ 19 % 10) →
      (m.store buf d >>= fun m => ultodecLoop prec lim m (buf + 1) u 1000000000000000000 19 true 1 >>=
        ultodecEnd) = .ok (m.write buf (out ++ [0#8]), (out.length : Int)) := by
    intro u hu hlt d hd
    have ho' : out = d :: sep lim (dtxt (fixDigits 10 19 u)) := by
      rw [ho, fixDigits, dtxt_cons, group, ← hd, ← @fixDigits_mod 10 19 ui 19 (le_refl _), ← hu,
        fixDigits_mod (le_refl _)]
    have hm0 := hm
    rw [ho', List.length_cons] at hm
    obtain ⟨hs, hm'⟩ := store_step hm d
    rw [hs]
    simp only [Res.ok_bind]
    rw [show (1000000000000000000 : Nat) = 10 ^ 19 / 10 by norm_num,
      ultodecLoop_all (by omega) hlt (hm'.mono (by omega))]
    simp only [Res.ok_bind]
    rw [← write_cons, ← ho']
    have := @ultodecEnd_eq m buf out (out.length) hm0
    rw [← this, ho']
    congr 2
    simp; omega
  unfold ultodec
  by_cases hb : 10000000000000000000 ≤ ui
  · rw [if_pos hb]
    refine key _ ?_ ?_ _ ?_
    · norm_num; omega
    · norm_num; omega
    · rw [show ui / 10 ^ 19 % 10 = 1 by norm_num; omega]; rfl
  · rw [if_neg (by omega), if_pos (by omega)]
    refine key _ rfl ?_ _ ?_
    · norm_num; omega
    · rw [show ui / 10 ^ 19 % 10 = 0 by norm_num; omega]; rfl

end Minilib

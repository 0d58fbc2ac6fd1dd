import Verif.Props.Printf
/-
C27 for `_itobin` with groups: the digits.
-/

set_option autoImplicit false

namespace Minilib
open Mem Spec

theorem write_inj {m : Mem} {p : Nat} {l k : List Byte} (hl : l.length = k.length) (h : m.write p l = m.write p k) : l = k := by
  have a1 := write_holds m p l
  rw [h] at a1
  have a2 := write_holds m p k
  refine List.ext_getElem hl fun i h1 h2 => ?_
  have e1 := a1 i h1
  rw [a2 i h2] at e1
  exact (Option.some.inj e1).symm

/-- The text without groups. -/
theorem binOut_nogroup {i : BitVec 32} {prec : Int} (hp1 : INT_MIN + 32 ≤ prec) (hp2 : prec ≤ 32) (h0 : i ≠ 0#32 ∨ 1 ≤ prec) :
    binOut i prec 33 = padTo prec 48#8 (numeral 2 i.toNat) := by
  obtain ⟨n, hn⟩ : ∃ n, n = max (binOut i prec 33).length (padTo prec 48#8 (numeral 2 i.toNat)).length := ⟨_, rfl⟩
  have hm : Mem.Mapped (fun _ => some 0#8) 0 (n + 1) := fun i _ => ⟨0#8, rfl⟩
  have e1 := itobin_text (i := i) (groups := 33) hp1 (by omega) (fun _ => some 0#8) 0 (hm.mono (by omega))
  have e2 := @C27_itobin_nogroup_partial (fun _ => some 0#8) i 0 prec 33 (by omega) hp1 hp2 h0 (hm.mono (by omega))
  have e := e1.symm.trans e2
  simp only [Res.ok.injEq, Prod.mk.injEq] at e
  have hl : (binOut i prec 33).length = (padTo prec 48#8 (numeral 2 i.toNat)).length := by
    have := e.2; omega
  have := write_inj (by simp [hl]) e.1
  exact (List.append_inj this hl).1

theorem digits_no_blank (i prec : Int) (n : Nat) (l : List Byte) (h : l = padTo prec 48#8 (numeral 2 n)) :
    l.filter (· ≠ 32#8) = l := by
  subst h
  rw [List.filter_eq_self]
  intro b hb
  have hd : ∀ d ∈ digitsOf 2 n, d < 2 := fun d hd => digitsOf_lt (by omega) d hd
  simp only [padTo, List.mem_append, List.mem_replicate] at hb
  rcases hb with ⟨_, rfl⟩ | hb
  · decide
  · obtain ⟨d, h1, rfl⟩ := List.mem_map.1 hb
    have : ∀ d : Fin 2, digitChar false d.val ≠ 32#8 := by decide +kernel
    exact decide_eq_true (this ⟨d, hd d h1⟩)

theorem binText_ne_nil (g : Int) : ∀ (n : Nat) (i : BitVec 32) (prec c : Int), -(n : Int) ≤ prec → prec ≤ 0 →
    binText g (n + 1) i prec c ≠ [] := by
  intro n
  induction n with
  | zero =>
    intro i prec c h1 h2
    have h0 : prec = 0 := by omega
    have : (binBit i prec).1 ≠ [] := by unfold binBit; split <;> simp [h0]
    unfold binText
    split <;> simp [this]
  | succ n ih =>
    intro i prec c h1 h2
    unfold binText
    by_cases hb : (binBit i prec).1 = []
    · have e : (binBit i prec).2 = prec + 1 ∧ prec ≠ 0 := by
        revert hb
        unfold binBit
        split
        · simp
        · split <;> simp_all
      have := fun c => ih (i <<< 1) (binBit i prec).2 c (by omega) (by omega)
      split
      · simp
      · simp [this]
    · split <;> simp [hb]

/-- C27: `_itobin` with any group size writes the right digits, with zeros up to the precision, and blanks among them; the blanks
are at most one more than the number of full groups.  (The position of the blanks is wrong, see C38_bingroup_refuted.) -/
theorem C27_itobin_groups_partial {i : BitVec 32} {prec : Nat} {groups : Nat} (hg : 1 ≤ groups) (hp1 : 1 ≤ prec) (hp2 : prec ≤ 32) :
    ∃ out : List Byte, out.filter (· ≠ 32#8) = padTo prec 48#8 (numeral 2 i.toNat) ∧
      out.length ≤ (padTo prec 48#8 (numeral 2 i.toNat)).length + (padTo prec 48#8 (numeral 2 i.toNat)).length / groups + 1 ∧
      ∀ (m : Mem) (buf : Nat), m.Mapped buf (out.length + 1) →
        itobin_ m i buf prec groups = .ok (m.write buf (out ++ [0#8]), (out.length : Int)) := by
  refine ⟨binOut i prec groups, ?_, ?_, itobin_text (by omega) (by omega)⟩
  · have h33 := @binOut_nogroup i prec (by omega) (by omega) (Or.inr (by omega))
    have hne : padTo (prec : Int) 48#8 (numeral 2 i.toNat) ≠ [] := by
      intro h
      exact numeral_ne_nil 2 i.toNat (List.append_eq_nil_iff.1 h).2
    have hf := digits_no_blank 0 prec i.toNat _ rfl
    have hE : ∀ g : Int, binText g 32 i (prec - 32) 0 ≠ [] := by
      intro g
      exact binText_ne_nil g 31 i _ 0 (by omega) (by omega)
    have e1 : ∀ g : Int, binOut i prec g = binText g 32 i (prec - 32) 0 := fun g => if_neg (hE g)
    rw [e1, binText_filter _ 33 _ _ _ _ 0, ← e1, h33, hf]
  · have hlen : (padTo (prec : Int) 48#8 (numeral 2 i.toNat)).length = max prec (numeral 2 i.toNat).length := by
      simp [padTo]; omega
    rw [hlen]
    refine binOut_length hg ?_ (by omega)
    have := nd_numeral i.toNat
    omega

/-- 0xfff with a precision of 16 in groups of 4: there is a blank in front and one at the end, but the digits are right. -/
example : ∃ out : List Byte, out.filter (· ≠ 32#8) = [48, 48, 48, 48, 49, 49, 49, 49, 49, 49, 49, 49, 49, 49, 49, 49] ∧
    ∀ (m : Mem) (buf : Nat), m.Mapped buf (out.length + 1) →
      itobin_ m 0xfff#32 buf 16 4 = .ok (m.write buf (out ++ [0#8]), (out.length : Int)) := by
  obtain ⟨out, h1, _, h2⟩ := @C27_itobin_groups_partial 0xfff#32 16 4 (by decide) (by decide) (by decide)
  refine ⟨out, ?_, h2⟩
  rw [h1]
  decide +kernel

end Minilib

import Verif.Model.Strtol
import Verif.Lemmas.Atoi
/-
Property C29: strtol, strtoimax, strtoll.
-/

set_option autoImplicit false

namespace Minilib
open Mem Spec

/-- Value of a digit character: 0-9, then letters of either case. -/
def digitVal (b : Byte) : Option Nat :=
  if 48 ≤ b.toNat ∧ b.toNat ≤ 57 then some (b.toNat - 48)
  else if 65 ≤ b.toNat ∧ b.toNat ≤ 90 then some (b.toNat - 55)
  else if 97 ≤ b.toNat ∧ b.toNat ≤ 122 then some (b.toNat - 87)
  else none

/-- White space. -/
def isWhite (b : Byte) : Bool := b ∈ [32#8, 9#8, 10#8, 11#8, 12#8, 13#8]

/-- `cs` are digits valid in the base, denoting `v`. -/
def Digits (base : Nat) (cs : List Byte) (v : Nat) : Prop :=
  ∃ ds, cs.map digitVal = ds.map some ∧ (∀ d ∈ ds, d < base) ∧ valueOf base ds = v

/-- Saturation into the range of the result. -/
def clamp (lo hi x : Int) : Int := if x < lo then lo else if hi < x then hi else x

/-- C29 for an explicit base: white space, optional sign, the longest run of digits. -/
def C29_strtol_full : Prop :=
  ∀ (m : Mem) (c base : Nat) (ws sg cs : List Byte) (t : Byte) (v : Nat), 2 ≤ base → base ≤ 36 →
    m.Holds c (ws ++ sg ++ cs ++ [t]) → (∀ b ∈ ws, isWhite b) →
    (sg = [] ∨ sg = [43#8] ∨ sg = [45#8]) → cs ≠ [] → Digits base cs v →
    (∀ d, digitVal t = some d → base ≤ d) →
    strtol m c base
      = .ok (clamp (-9223372036854775808) 9223372036854775807 (if sg = [45#8] then -(v : Int) else v),
          c + ws.length + sg.length + cs.length)

/-! ### Lemmas -/

theorem isspaceB_eq : ∀ b : Byte, isspaceB b = isWhite b := by decide +kernel

theorem strtolAdd_eq : ∀ b : Byte, strtolAdd b = match digitVal b with | some d => (d : Int) | none => -1 := by
  decide +kernel

theorem digit_not_white : ∀ b : Byte, (digitVal b).isSome → isWhite b = false ∧ b ≠ 45#8 := by
  decide +kernel

theorem strtolSkip_eq {m : Mem} {c : Nat} {ws : List Byte} {b : Byte} (h : m.Holds c (ws ++ [b]))
    (hw : ∀ b ∈ ws, isWhite b) (hb : isWhite b = false) : strtolSkip m c = .ok (c + ws.length) := by
  induction ws generalizing c with
  | nil =>
    have h0 : m c = some b := by have := h 0 (by simp); simpa using this
    rw [strtolSkip, load_some h0]
    simp [isspaceB_eq, hb]
  | cons w ws ih =>
    rw [List.cons_append, holds_cons] at h
    rw [strtolSkip, load_some h.1]
    simp only [Res.ok_bind]
    rw [if_pos (by rw [isspaceB_eq]; exact hw w (by simp)), ih h.2 (fun b hb => hw b (by simp [hb]))]
    simp; omega

/-- The digit loop on valid digits, for any accumulator type with upper limit `hi`. -/
theorem strtolLoop_digits {m : Mem} {ck : Int → Res Int} {lo hi : Int}
    (hck : ∀ x, 0 ≤ x → x ≤ hi → ck x = .ok x) {sign : Bool} {base : Nat} (ds : List Nat) :
    ∀ {cs : List Byte} {c r : Nat}, m.Holds c cs → cs.map digitVal = ds.map some →
      (∀ d ∈ ds, d < base) → ((r * base ^ ds.length + valueOf base ds : Nat) : Int) ≤ hi →
      strtolLoop m ck lo hi sign base c r
        = strtolLoop m ck lo hi sign base (c + cs.length)
            ((r * base ^ ds.length + valueOf base ds : Nat) : Int) := by
  induction ds with
  | nil =>
    intro cs c r _ hc _ _
    have : cs = [] := by simpa using hc
    simp [this, valueOf]
  | cons d ds ih =>
    intro cs c r hh hc hd hv
    match cs, hc with
    | x :: cs, hc =>
    rw [holds_cons] at hh
    simp only [List.map_cons, List.cons.injEq] at hc
    have hdb : d < base := hd d (by simp)
    have hval : r * base ^ (d :: ds).length + valueOf base (d :: ds)
        = (r * base + d) * base ^ ds.length + valueOf base ds := by
      have := valueOf_append_val base [d] ds
      rw [List.singleton_append] at this
      rw [this, List.length_cons, Nat.pow_succ]
      simp only [valueOf, List.foldl_cons, List.foldl_nil, Nat.zero_mul, Nat.zero_add]
      ring
    rw [hval] at hv ⊢
    have hp : 1 ≤ base ^ ds.length := Nat.pow_pos (by omega)
    have hle : ((r * base + d : Nat) : Int) ≤ hi := by
      have : r * base + d ≤ (r * base + d) * base ^ ds.length := Nat.le_mul_of_pos_right _ hp
      omega
    rw [strtolLoop, load_some hh.1]
    simp only [Res.ok_bind, strtolAdd_eq, hc.1]
    have h1 : ck ((r : Int) * (base : Int)) = .ok (((r * base : Nat)) : Int) := by
      rw [← Nat.cast_mul]; exact hck _ (by omega) (by omega)
    have h2 : ck (((r * base : Nat) : Int) + d) = .ok ((r * base + d : Nat) : Int) := by
      rw [← Nat.cast_add]; exact hck _ (by omega) hle
    rw [if_neg (by omega), h1]
    simp only [Res.ok_bind]
    rw [h2]
    simp only [Res.ok_bind]
    rw [if_neg (by omega), ih hh.2 hc.2 (fun x hx => hd x (by simp [hx])) hv]
    rw [List.length_cons, show c + 1 + cs.length = c + (cs.length + 1) by omega]

theorem strtolGen_eq {m : Mem} {ck : Int → Res Int} {lo hi : Int}
    (hck : ∀ x, 0 ≤ x → x ≤ hi → ck x = .ok x) (hckn : ∀ x, -hi ≤ x → x ≤ 0 → ck x = .ok x)
    {c base : Nat} {ws cs pre : List Byte} {neg : Bool} {t : Byte} {v : Nat} {base0 : Int}
    (hpre : strtolBase m (c + ws.length + (if neg then 1 else 0)) base0
      = .ok ((base : Int), c + ws.length + (if neg then 1 else 0) + pre.length))
    (hh : m.Holds c (ws ++ (if neg then [45#8] else []) ++ pre ++ cs ++ [t]))
    (hw : ∀ b ∈ ws, isWhite b) (hne : ∃ b, (pre ++ cs).head? = some b ∧ isWhite b = false ∧ b ≠ 45#8)
    (hd : Digits base cs v) (hv : (v : Int) ≤ hi)
    (ht : ∀ d, digitVal t = some d → base < d) :
    strtolGen m ck lo hi c base0
      = .ok (if neg then -(v : Int) else v,
          c + ws.length + (if neg then 1 else 0) + pre.length + cs.length) := by
  obtain ⟨ds, hds, hlt, rfl⟩ := hd
  have hend : ∀ a, m.Holds a (cs ++ [t]) →
      strtolLoop m ck lo hi neg base a 0
        = .ok (if neg then -((valueOf base ds : Nat) : Int) else ((valueOf base ds : Nat) : Int), a + cs.length) := by
    intro a ha
    rw [holds_append] at ha
    have h1 := @strtolLoop_digits m ck lo hi hck neg base ds cs a 0 ha.1 hds hlt (by simpa using hv)
    have h2 : m (a + cs.length) = some t := by have := ha.2 0 (by simp); simpa using this
    simp only [Nat.zero_mul, Nat.zero_add] at h1
    rw [show ((0 : Nat) : Int) = 0 from rfl] at h1
    rw [h1, strtolLoop, load_some h2]
    simp only [Res.ok_bind]
    rw [if_pos]
    · cases neg
      · simp
      · simp only [if_true]
        rw [hckn _ (by omega) (by omega)]; rfl
    · rw [strtolAdd_eq]
      cases hdv : digitVal t with
      | none => right; rfl
      | some d => left; have := ht d hdv; simp; omega
  unfold strtolGen
  cases neg with
  | true =>
    simp only [if_true] at hh hpre ⊢
    have h1 : m.Holds c (ws ++ [45#8]) := by
      rw [List.append_assoc, List.append_assoc, holds_append] at hh
      exact hh.1
    have hc : m (c + ws.length) = some 45#8 := by
      have := (holds_append.1 h1).2 0 (by simp); simpa using this
    rw [strtolSkip_eq h1 hw (by decide)]
    simp only [Res.ok_bind]
    rw [load_some hc]
    simp only [Res.ok_bind, if_true]
    rw [hpre]
    simp only [Res.ok_bind]
    rw [hend]
    · simp
    · rw [List.append_assoc, holds_append] at hh
      have := hh.2
      simp only [List.length_append, List.length_singleton] at this
      rwa [show c + (ws.length + 1 + pre.length) = c + ws.length + 1 + pre.length by omega] at this
  | false =>
    simp only [Bool.false_eq_true, if_false, List.append_nil, Nat.add_zero] at hh hpre ⊢
    obtain ⟨b, hb, hbw, hbm⟩ := hne
    obtain ⟨tl, htl⟩ : ∃ tl, pre ++ cs = b :: tl := by
      revert hb
      cases pre ++ cs with
      | nil => simp
      | cons x tl => intro h; simp at h; exact ⟨tl, by rw [h]⟩
    have hh' : m.Holds c (ws ++ ([b] ++ (tl ++ [t]))) := by
      have e : ws ++ pre ++ cs ++ [t] = ws ++ ([b] ++ (tl ++ [t])) := by
        rw [List.append_assoc ws, List.append_assoc ws, htl]; simp
      rwa [← e]
    have h1 : m.Holds c (ws ++ [b]) := by
      rw [← List.append_assoc, holds_append] at hh'
      exact hh'.1
    have hc : m (c + ws.length) = some b := by
      have := (holds_append.1 h1).2 0 (by simp); simpa using this
    rw [strtolSkip_eq h1 hw hbw]
    simp only [Res.ok_bind]
    rw [load_some hc]
    simp only [Res.ok_bind, hbm, if_false]
    rw [hpre]
    simp only [Res.ok_bind]
    rw [hend]
    · simp
    · rw [List.append_assoc, holds_append] at hh
      have := hh.2
      simp only [List.length_append] at this
      rwa [← Nat.add_assoc] at this

theorem Digits.head {base : Nat} {cs : List Byte} {v : Nat} (h : Digits base cs v) (hne : cs ≠ []) :
    ∃ b, cs.head? = some b ∧ isWhite b = false ∧ b ≠ 45#8 := by
  obtain ⟨ds, h1, _, _⟩ := h
  match cs, ds, hne, h1 with
  | b :: cs, d :: ds, _, h1 =>
    simp only [List.map_cons, List.cons.injEq] at h1
    exact ⟨b, rfl, digit_not_white b (by rw [h1.1]; rfl)⟩

theorem ckLong_pos : ∀ x : Int, 0 ≤ x → x ≤ 9223372036854775807 → ckLong x = .ok x := by
  intro x h1 h2; rw [ckLong, if_pos (by omega)]
theorem ckLong_neg : ∀ x : Int, -9223372036854775807 ≤ x → x ≤ 0 → ckLong x = .ok x := by
  intro x h1 h2; rw [ckLong, if_pos (by omega)]

/-! ### Properties -/

/-- C29: `strtol` in every base 2..36, with white space and an optional minus sign, when the value
fits and the byte behind the digits is not the digit whose value equals the base. -/
theorem C29_strtol_partial {m : Mem} {c base : Nat} {ws cs : List Byte} {neg : Bool} {t : Byte} {v : Nat}
    (hb : 2 ≤ base)
    (hh : m.Holds c (ws ++ (if neg then [45#8] else []) ++ cs ++ [t])) (hw : ∀ b ∈ ws, isWhite b)
    (hne : cs ≠ []) (hd : Digits base cs v) (hv : v ≤ 9223372036854775807)
    (ht : ∀ d, digitVal t = some d → base < d) :
    strtol m c base = .ok (if neg then -(v : Int) else v,
      c + ws.length + (if neg then 1 else 0) + cs.length) := by
  have := @strtolGen_eq m ckLong (-9223372036854775808) 9223372036854775807 ckLong_pos ckLong_neg c base
    ws cs [] neg t v base (by rw [strtolBase, if_neg (by omega)]; rfl) (by simpa using hh) hw
    (by simpa using hd.head hne) hd (by omega) ht
  simpa [strtol] using this

/-- C29: the same for `strtoimax`, whose result is an `int`. -/
theorem C29_strtoimax_partial {m : Mem} {c base : Nat} {ws cs : List Byte} {neg : Bool} {t : Byte} {v : Nat}
    (hb : 2 ≤ base)
    (hh : m.Holds c (ws ++ (if neg then [45#8] else []) ++ cs ++ [t])) (hw : ∀ b ∈ ws, isWhite b)
    (hne : cs ≠ []) (hd : Digits base cs v) (hv : v ≤ 2147483647)
    (ht : ∀ d, digitVal t = some d → base < d) :
    strtoimax m c base = .ok (if neg then -(v : Int) else v,
      c + ws.length + (if neg then 1 else 0) + cs.length) := by
  have := @strtolGen_eq m ckInt INT_MIN INT_MAX (fun x h1 h2 => ckInt_ok (by omega) h2)
    (fun x h1 h2 => ckInt_ok (by omega) (by omega)) c base
    ws cs [] neg t v base (by rw [strtolBase, if_neg (by omega)]; rfl) (by simpa using hh) hw
    (by simpa using hd.head hne) hd (by omega) ht
  simpa [strtoimax] using this

/-- " \t-7fZ" in base 16: value -0x7f, stopped at the Z. -/
example : strtol (object 100 [32, 9, 45, 55, 102, 90, 0]) 100 16 = .ok (-127, 105) :=
  C29_strtol_partial (base := 16) (ws := [32, 9]) (cs := [55, 102]) (neg := true) (t := 90#8) (v := 127)
    (by decide) (by decide) (by decide) (by decide) ⟨[7, 15], by decide, by decide, by decide⟩ (by decide)
    (by decide)

example : strtoimax (object 100 [50, 49, 52, 55, 52, 56, 51, 54, 52, 55, 0]) 100 10
    = .ok (2147483647, 110) :=
  C29_strtoimax_partial (base := 10) (ws := []) (cs := [50, 49, 52, 55, 52, 56, 51, 54, 52, 55])
    (neg := false) (t := 0#8) (v := 2147483647) (by decide) (by decide +kernel) (by decide) (by decide)
    ⟨[2, 1, 4, 7, 4, 8, 3, 6, 4, 7], by decide, by decide, by decide⟩ (by decide) (by decide)

/-- C29: base 0 with the prefix "0x" is base 16. -/
theorem C29_base0_hex_partial {m : Mem} {c : Nat} {ws cs : List Byte} {neg : Bool} {t : Byte} {v : Nat}
    (hh : m.Holds c (ws ++ (if neg then [45#8] else []) ++ [48#8, 120#8] ++ cs ++ [t]))
    (hw : ∀ b ∈ ws, isWhite b) (hd : Digits 16 cs v) (hv : v ≤ 9223372036854775807)
    (ht : ∀ d, digitVal t = some d → 16 < d) :
    strtol m c 0 = .ok (if neg then -(v : Int) else v,
      c + ws.length + (if neg then 1 else 0) + 2 + cs.length) := by
  refine @strtolGen_eq m ckLong (-9223372036854775808) 9223372036854775807 ckLong_pos ckLong_neg c 16
    ws cs [48#8, 120#8] neg t v 0 ?_ hh hw ⟨48#8, rfl, by decide, by decide⟩ hd (by omega) ht
  have hp : m.Holds (c + ws.length + if neg then 1 else 0) ([48#8, 120#8] ++ (cs ++ [t])) := by
    rw [List.append_assoc, List.append_assoc, holds_append] at hh
    have := hh.2
    cases neg <;> simpa [Nat.add_assoc] using this
  simp only [List.cons_append, List.nil_append, holds_cons] at hp
  rw [strtolBase, if_pos rfl, load_some hp.1]
  simp only [Res.ok_bind, if_true]
  rw [load_some hp.2.1]
  simp

/-- C29: base 0 with the prefix "0" (not followed by x) is base 8. -/
theorem C29_base0_oct_partial {m : Mem} {c : Nat} {ws cs : List Byte} {neg : Bool} {t : Byte} {v : Nat}
    (hh : m.Holds c (ws ++ (if neg then [45#8] else []) ++ [48#8] ++ cs ++ [t]))
    (hw : ∀ b ∈ ws, isWhite b) (hd : Digits 8 cs v) (hv : v ≤ 9223372036854775807)
    (hx : (cs ++ [t]).head? ≠ some 120#8)
    (ht : ∀ d, digitVal t = some d → 8 < d) :
    strtol m c 0 = .ok (if neg then -(v : Int) else v,
      c + ws.length + (if neg then 1 else 0) + 1 + cs.length) := by
  refine @strtolGen_eq m ckLong (-9223372036854775808) 9223372036854775807 ckLong_pos ckLong_neg c 8
    ws cs [48#8] neg t v 0 ?_ hh hw ⟨48#8, rfl, by decide, by decide⟩ hd (by omega) ht
  have hp : m.Holds (c + ws.length + if neg then 1 else 0) (48#8 :: (cs ++ [t])) := by
    rw [List.append_assoc, List.append_assoc, holds_append] at hh
    have := hh.2
    cases neg <;> simpa [Nat.add_assoc] using this
  rw [holds_cons] at hp
  rw [strtolBase, if_pos rfl, load_some hp.1]
  simp only [Res.ok_bind, if_true]
  have : ∃ y tl, cs ++ [t] = y :: tl := by cases cs <;> simp
  obtain ⟨y, tl, e⟩ := this
  rw [e] at hp hx
  rw [load_some (holds_cons.1 hp.2).1]
  simp only [Res.ok_bind]
  rw [if_neg (by simpa using hx)]
  simp

/-- C29: base 0 without such a prefix is base 10. -/
theorem C29_base0_dec_partial {m : Mem} {c : Nat} {ws cs : List Byte} {neg : Bool} {t : Byte} {v : Nat}
    (hh : m.Holds c (ws ++ (if neg then [45#8] else []) ++ cs ++ [t])) (hw : ∀ b ∈ ws, isWhite b)
    (hne : cs ≠ []) (h0 : cs.head? ≠ some 48#8) (hd : Digits 10 cs v) (hv : v ≤ 9223372036854775807)
    (ht : ∀ d, digitVal t = some d → 10 < d) :
    strtol m c 0 = .ok (if neg then -(v : Int) else v,
      c + ws.length + (if neg then 1 else 0) + cs.length) := by
  have := @strtolGen_eq m ckLong (-9223372036854775808) 9223372036854775807 ckLong_pos ckLong_neg c 10
    ws cs [] neg t v 0 ?_ (by simpa using hh) hw (by simpa using hd.head hne) hd (by omega) ht
  · simpa [strtol] using this
  · have hp : m.Holds (c + ws.length + if neg then 1 else 0) (cs ++ [t]) := by
      rw [List.append_assoc, holds_append] at hh
      have := hh.2
      cases neg <;> simpa [Nat.add_assoc] using this
    match cs, hne, h0, hp with
    | x :: cs, _, h0, hp =>
    rw [List.cons_append, holds_cons] at hp
    rw [strtolBase, if_pos rfl, load_some hp.1]
    simp only [Res.ok_bind]
    rw [if_neg (by simpa using h0)]
    rfl

example : strtol (object 100 [48, 120, 49, 70, 44]) 100 0 = .ok (31, 104) :=
  C29_base0_hex_partial (ws := []) (cs := [49, 70]) (neg := false) (t := 44#8) (v := 31)
    (by decide) (by decide) ⟨[1, 15], by decide, by decide, by decide⟩ (by decide) (by decide)
example : strtol (object 100 [45, 48, 49, 55, 0]) 100 0 = .ok (-15, 104) :=
  C29_base0_oct_partial (ws := []) (cs := [49, 55]) (neg := true) (t := 0#8) (v := 15)
    (by decide) (by decide) ⟨[1, 7], by decide, by decide, by decide⟩ (by decide) (by decide) (by decide)
example : strtol (object 100 [32, 49, 55, 0]) 100 0 = .ok (17, 103) :=
  C29_base0_dec_partial (ws := [32]) (cs := [49, 55]) (neg := false) (t := 0#8) (v := 17)
    (by decide) (by decide) (by decide) (by decide) ⟨[1, 7], by decide, by decide, by decide⟩ (by decide)
    (by decide)

/-- C29 fails: the digit with the value of the base is accepted.  `strtol("1a", &end, 10)` is 20 and
`end` points behind the `a`. -/
theorem C29_strtol_refuted : ¬ C29_strtol_full := by
  intro h
  have h := h (object 100 [49, 97, 0]) 100 10 [] [] [49] 97#8 1 (by decide) (by decide) (by decide)
    (by decide) (by decide) (by decide) ⟨[1], by decide, by decide, by decide⟩ (by decide)
  unfold strtol strtolGen at h
  rw [strtolSkip, load_some (b := 49#8) (by decide)] at h
  simp only [Res.ok_bind] at h
  rw [if_neg (by decide)] at h
  simp only [Res.pure_eq, Res.ok_bind] at h
  rw [load_some (b := 49#8) (by decide)] at h
  simp only [Res.ok_bind] at h
  rw [if_neg (by decide), strtolBase, if_neg (by decide)] at h
  simp only [Res.pure_eq, Res.ok_bind] at h
  rw [strtolLoop, load_some (b := 49#8) (by decide)] at h
  simp only [Res.ok_bind] at h
  rw [if_neg (by decide), ckLong, if_pos (by decide)] at h
  simp only [Res.ok_bind] at h
  rw [ckLong, if_pos (by decide)] at h
  simp only [Res.ok_bind] at h
  rw [if_neg (by decide), strtolLoop, load_some (b := 97#8) (by decide)] at h
  simp only [Res.ok_bind] at h
  rw [if_neg (by decide), ckLong, if_pos (by decide)] at h
  simp only [Res.ok_bind] at h
  rw [ckLong, if_pos (by decide)] at h
  simp only [Res.ok_bind] at h
  rw [if_neg (by decide), strtolLoop, load_some (b := 0#8) (by decide)] at h
  simp only [Res.ok_bind] at h
  rw [if_pos (by decide)] at h
  revert h
  decide

/-- C29 fails for numbers that do not fit: instead of the limit of the type the result is undefined
(the accumulator overflows before it is tested). -/
theorem C29_overflow_refuted : ¬ ∀ (m : Mem) (c : Nat) (cs : List Byte) (v : Nat),
    m.IsStr c cs → cs ≠ [] → Digits 10 cs v →
    ∃ e, strtol m c 10 = .ok (clamp (-9223372036854775808) 9223372036854775807 v, e) := by
  intro h
  obtain ⟨e, h⟩ := h (object 100 [57, 50, 50, 51, 51, 55, 50, 48, 51, 54, 56, 53, 52, 55, 55, 53, 56, 48, 56, 0])
    100 [57, 50, 50, 51, 51, 55, 50, 48, 51, 54, 56, 53, 52, 55, 55, 53, 56, 48, 56] 9223372036854775808
    (by decide +kernel) (by decide)
    ⟨[9, 2, 2, 3, 3, 7, 2, 0, 3, 6, 8, 5, 4, 7, 7, 5, 8, 0, 8], by decide, by decide, by decide⟩
  unfold strtol strtolGen at h
  rw [strtolSkip_eq (ws := []) (b := 57#8) (by decide) (by decide) (by decide)] at h
  simp only [Res.ok_bind, List.length_nil, Nat.add_zero] at h
  rw [load_some (b := 57#8) (by decide)] at h
  simp only [Res.ok_bind] at h
  rw [if_neg (by decide), strtolBase, if_neg (by decide)] at h
  simp only [Res.pure_eq, Res.ok_bind] at h
  have h1 := @strtolLoop_digits
    (object 100 [57, 50, 50, 51, 51, 55, 50, 48, 51, 54, 56, 53, 52, 55, 55, 53, 56, 48, 56, 0])
    ckLong (-9223372036854775808) 9223372036854775807 ckLong_pos false 10
    [9, 2, 2, 3, 3, 7, 2, 0, 3, 6, 8, 5, 4, 7, 7, 5, 8, 0]
    [57, 50, 50, 51, 51, 55, 50, 48, 51, 54, 56, 53, 52, 55, 55, 53, 56, 48] 100 0 (by decide +kernel)
    (by decide) (by decide) (by decide)
  rw [show ((0 : Nat) : Int) = 0 from rfl, show ((10 : Nat) : Int) = 10 from rfl] at h1
  rw [h1, strtolLoop, load_some (b := 56#8) (by decide)] at h
  simp only [Res.ok_bind] at h
  rw [if_neg (by decide), ckLong, if_pos (by decide)] at h
  simp only [Res.ok_bind] at h
  rw [ckLong, if_neg (by decide)] at h
  cases h

end Minilib

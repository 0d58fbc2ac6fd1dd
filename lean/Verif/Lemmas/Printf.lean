import Verif.Spec.Printf
import Verif.Lemmas.PrintfConv
import Verif.Lemmas.Itobin
import Verif.Props.Radix
import Verif.Lemmas.Str
/-
The interpretation of a format by vsnprintf: one item, and a list of items.
-/

set_option autoImplicit false

namespace Minilib
open Mem Spec

/-! ### Parsing a conversion -/

/-- The variables of the code for given modifiers. -/
def toPf (fl : FmtFlags) : PfFlags :=
  ⟨fl.width, if fl.sep then 46#8 else 0#8, fl.groups, fl.long, if fl.zero then 48#8 else 32#8⟩

theorem isDig_digit {d : Nat} (h : d < 10) : isDig (BitVec.ofNat 8 (48 + d)) := by
  have : ∀ d : Fin 10, isDig (BitVec.ofNat 8 (48 + d.val)) := by decide +kernel
  exact this ⟨d, h⟩

theorem digit_val {d : Nat} (h : d < 10) : (BitVec.ofNat 8 (48 + d)).toInt - 48 = d := by
  have : ∀ d : Fin 10, (BitVec.ofNat 8 (48 + d.val)).toInt - 48 = d.val := by decide +kernel
  exact this ⟨d, h⟩

theorem not_isDig {c : Byte} (h : ∀ d, d < 10 → c ≠ BitVec.ofNat 8 (48 + d)) : ¬ isDig c := by
  have : ∀ c : Byte, isDig c → ∃ d : Fin 10, c = BitVec.ofNat 8 (48 + d.val) := by decide +kernel
  intro hc
  obtain ⟨d, hd⟩ := this c hc
  exact h d.val d.isLt hd

theorem foldl_digits_le : ∀ (ds : List Nat) (w : Nat), w ≤ ds.foldl (fun w d => w * 10 + d) w := by
  intro ds
  induction ds with
  | nil => intro w; simp
  | cons d ds ih => intro w; have := ih (w * 10 + d); simp only [List.foldl_cons]; omega

theorem fmtDigits_eq {m : Mem} {fmt : Nat} {c : Byte} (hc : ∀ d, d < 10 → c ≠ BitVec.ofNat 8 (48 + d)) :
    ∀ (ds : List Nat) (a w : Nat), (∀ d ∈ ds, d < 10) → ds.foldl (fun w d => w * 10 + d) w ≤ 2147483647 →
      m.Holds (fmt + a) (ds.map (fun d => BitVec.ofNat 8 (48 + d)) ++ [c]) →
      fmtDigits m fmt a w = .ok (a + ds.length, ((ds.foldl (fun w d => w * 10 + d) w : Nat) : Int)) := by
  intro ds
  induction ds with
  | nil =>
    intro a w _ _ hh
    rw [fmtDigits, load_some (holds_cons.1 hh).1]
    simp only [Res.ok_bind]
    rw [if_neg (not_isDig hc)]
    rfl
  | cons d ds ih =>
    intro a w hd hw hh
    rw [List.map_cons, List.cons_append, holds_cons] at hh
    have hd10 : d < 10 := hd d (by simp)
    rw [fmtDigits, load_some hh.1]
    simp only [Res.ok_bind]
    rw [if_pos (isDig_digit hd10)]
    have := foldl_digits_le ds (w * 10 + d)
    simp only [List.foldl_cons] at hw
    rw [ckInt_ok (by omega) (by omega)]
    simp only [Res.ok_bind]
    rw [digit_val hd10, ckInt_ok (by omega) (by omega)]
    simp only [Res.ok_bind]
    have := ih (a + 1) (w * 10 + d) (fun d hd' => hd d (by simp [hd'])) hw (by
      rw [show fmt + (a + 1) = fmt + a + 1 by omega]; exact hh.2)
    push_cast at this
    rw [this]
    simp only [List.length_cons, List.foldl_cons]
    congr 2; omega

/-- The flag, number and character of a chunk are read. -/
theorem chunk_read {m : Mem} {fmt a : Nat} {fl : FmtFlags} {c : Chunk} (hc : c.Ok)
    (hw : (fl.num c).width ≤ 2147483647) (hh : m.Holds (fmt + (a + 1)) c.text) :
    ∃ a' : Nat, a' + 1 = a + 1 + c.text.length ∧ m (fmt + a') = some c.ch ∧
      ∃ z : Nat, fmtZero m fmt (a + 1) (toPf fl).pad = .ok (z, (toPf (fl.num c)).pad) ∧
        fmtDigits m fmt z (toPf fl).padding = .ok (a', (toPf (fl.num c)).padding) := by
  obtain ⟨h1, h2, h3⟩ := hc
  have hlast : ∀ (q : Nat), m.Holds q (c.digits.map (fun d => BitVec.ofNat 8 (48 + d)) ++ [c.ch]) →
      m (q + c.digits.length) = some c.ch := by
    intro q hq
    have := (holds_append.1 hq).2
    rw [List.length_map] at this
    exact (holds_cons.1 this).1
  unfold Chunk.text at hh ⊢
  by_cases hz : c.zero = true
  · rw [if_pos hz] at hh ⊢
    rw [List.singleton_append, List.cons_append, holds_cons] at hh
    have hq : m.Holds (fmt + (a + 2)) (c.digits.map (fun d => BitVec.ofNat 8 (48 + d)) ++ [c.ch]) := by
      rw [show fmt + (a + 2) = fmt + (a + 1) + 1 by omega]; exact hh.2
    refine ⟨a + 2 + c.digits.length, by simp; omega, ?_, a + 2, ?_, ?_⟩
    · rw [show fmt + (a + 2 + c.digits.length) = fmt + (a + 2) + c.digits.length by omega]
      exact hlast _ hq
    · unfold fmtZero
      rw [load_some hh.1]
      simp [toPf, FmtFlags.num, hz]
    · exact fmtDigits_eq h3 c.digits (a + 2) fl.width h1 hw hq
  · rw [if_neg hz] at hh ⊢
    rw [List.nil_append] at hh ⊢
    refine ⟨a + 1 + c.digits.length, by simp; omega, ?_, a + 1, ?_, ?_⟩
    · rw [show fmt + (a + 1 + c.digits.length) = fmt + (a + 1) + c.digits.length by omega]
      exact hlast _ hh
    · unfold fmtZero
      have : ∃ x, m (fmt + (a + 1)) = some x ∧ x ≠ 48#8 := by
        cases hds : c.digits with
        | nil =>
          rw [hds] at hh
          exact ⟨c.ch, (holds_cons.1 hh).1, h3 0 (by omega)⟩
        | cons d ds =>
          rw [hds] at hh
          refine ⟨_, (holds_cons.1 hh).1, ?_⟩
          have hd : d < 10 := h1 d (by simp [hds])
          have hd0 : d ≠ 0 := by
            intro h0
            exact h2 (by simpa using hz) (by simp [hds, h0])
          have : ∀ d : Fin 10, d.val ≠ 0 → BitVec.ofNat 8 (48 + d.val) ≠ 48#8 := by decide +kernel
          exact this ⟨d, hd⟩ hd0
      obtain ⟨x, hx, hx'⟩ := this
      rw [load_some hx]
      simp [toPf, FmtFlags.num, hz, hx']
    · exact fmtDigits_eq h3 c.digits (a + 1) fl.width h1 hw hh

/-- A modifier chunk only changes the flags. -/
theorem pfSwitch_mod {junk : Nat → Byte} {m : Mem} {fmt a buf b size : Nat} {args : List PfArg}
    {fl : FmtFlags} {c : Chunk} (h : modChar c.ch) :
    pfSwitch junk m fmt a buf b size args (toPf (fl.num c)) c.ch = .ok (.more a (toPf (fl.chunk c))) := by
  unfold modChar at h
  simp only [List.mem_cons, List.not_mem_nil, or_false, not_or] at h
  obtain ⟨h0, h1, h2, h3, h4, h5, h6, h7, h8, h9, h10, h11⟩ := h
  unfold pfSwitch
  rw [if_neg h1, if_neg h2, if_neg h3, if_neg h4]
  by_cases hl : c.ch = 108#8
  · rw [if_pos hl]
    cases hsp : fl.sep <;> simp [toPf, FmtFlags.chunk, FmtFlags.num, hl, hsp]
  · rw [if_neg hl]
    by_cases hs : c.ch = 39#8
    · rw [if_pos hs]
      simp [toPf, FmtFlags.chunk, FmtFlags.num, hs]
    · rw [if_neg hs, if_neg h5, if_neg h6, if_neg h7, if_neg h8, if_neg h9, if_neg h10, if_neg h11]
      cases hsp : fl.sep <;> simp [toPf, FmtFlags.chunk, FmtFlags.num, hl, hs, hsp]

theorem width_mono_mods : ∀ (mods : List FmtMod) (fl : FmtFlags),
    fl.width ≤ (mods.foldl FmtFlags.mod fl).width := by
  intro mods
  induction mods with
  | nil => intro fl; simp
  | cons c mods ih =>
    intro fl
    have h1 := ih (fl.mod c)
    have h2 : fl.width ≤ (fl.mod c).width := by cases c <;> exact foldl_digits_le _ _
    simp only [List.foldl_cons]
    omega

/-- One pass over a modifier chunk. -/
theorem pfConvLoop_chunk {junk : Nat → Byte} {m : Mem} {fmt a buf b size : Nat} {args : List PfArg} {fl : FmtFlags}
    {c : Chunk} (hc : c.Ok) (hcm : modChar c.ch) (hw : (fl.num c).width ≤ 2147483647)
    (hh : m.Holds (fmt + (a + 1)) c.text) {x : Byte} (hx : m (fmt + (a + c.text.length + 1)) = some x) (hx0 : x ≠ 0#8) :
    pfConvLoop junk m fmt a buf b size args (toPf fl)
      = pfConvLoop junk m fmt (a + c.text.length) buf b size args (toPf (fl.chunk c)) := by
  obtain ⟨a', ha', hm', z, hz, hd⟩ := chunk_read hc hw hh
  have hea : a' = a + c.text.length := by omega
  subst hea
  rw [pfConvLoop, hz]
  simp only [Res.ok_bind]
  rw [hd]
  simp only [Res.ok_bind]
  rw [load_some hm']
  simp only [Res.ok_bind]
  rw [show ({ toPf fl with padding := (toPf (fl.num c)).padding, pad := (toPf (fl.num c)).pad } : PfFlags)
    = toPf (fl.num c) from rfl]
  rw [pfSwitch_mod hcm]
  simp only [Res.ok_bind]
  rw [load_some hx]
  simp only [Res.ok_bind]
  rw [if_pos hx0]

/-- The digits of a group size. -/
theorem groupDigits_eq {m : Mem} {fmt : Nat} {c : Byte} (hc : ¬ isDig c) : ∀ (g : List Nat) (a : Nat),
    (∀ d ∈ g, d < 10) → m.Holds (fmt + a) (g.map (fun d => BitVec.ofNat 8 (48 + d)) ++ [c]) →
    groupDigits m fmt a = .ok (g.map (fun d => BitVec.ofNat 8 (48 + d)), a + g.length) := by
  intro g
  induction g with
  | nil =>
    intro a _ hh
    rw [groupDigits, load_some (holds_cons.1 hh).1]
    simp only [Res.ok_bind]
    rw [if_neg hc]
    rfl
  | cons d g ih =>
    intro a hd hh
    rw [List.map_cons, List.cons_append, holds_cons] at hh
    rw [groupDigits, load_some hh.1]
    simp only [Res.ok_bind]
    rw [if_pos (isDig_digit (hd d (by simp))), ih (a + 1) (fun d hd' => hd d (by simp [hd'])) (by
      rw [show fmt + (a + 1) = fmt + a + 1 by omega]; exact hh.2)]
    simp only [Res.ok_bind, List.map_cons, List.length_cons]
    show Res.ok _ = _
    congr 2; omega

theorem digit_bytes {g : List Nat} (hg : ∀ d ∈ g, d < 10) :
    g.map (fun d => BitVec.ofNat 8 (48 + d)) = signedTxt false g := by
  simp only [signedTxt, dtxt, Bool.false_eq_true, if_false, List.nil_append]
  refine List.map_congr_left fun d hd => ?_
  have : ∀ d : Fin 10, BitVec.ofNat 8 (48 + d.val) = digitChar false d.val := by decide +kernel
  exact this ⟨d, hg d hd⟩

/-- The modifier '(' with a number and ')' behind it. -/
theorem fmtGroup_eq {m : Mem} {fmt a : Nat} {g : List Nat} {old : Int} (hg : ∀ d ∈ g, d < 10) (hl : g.length ≤ 10)
    (hv : valueOf 10 g ≤ 2147483647) (hh : m.Holds (fmt + (a + 1)) (g.map (fun d => BitVec.ofNat 8 (48 + d)) ++ [41#8])) :
    fmtGroup m fmt a old = .ok (if g = [] then (a + 1, old) else (a + g.length, (valueOf 10 g : Int))) := by
  unfold fmtGroup
  cases g with
  | nil =>
    rw [load_some (holds_cons.1 hh).1]
    simp only [Res.ok_bind]
    rw [if_neg (by decide)]
    rfl
  | cons d g =>
    rw [load_some (holds_cons.1 hh).1]
    simp only [Res.ok_bind]
    rw [if_pos (isDig_digit (hg d (by simp))), groupDigits_eq (by decide) (d :: g) (a + 1) hg hh]
    simp only [Res.ok_bind]
    rw [if_pos (by simp at hl ⊢; omega), digit_bytes hg, C28_atoi_partial (neg := false) (ds := d :: g) ?_ hg hl hv]
    · simp only [Res.ok_bind, List.cons_ne_nil, if_false, List.length_cons]
      show Res.ok _ = _
      simp [signedVal]
      omega
    · refine isStr_object 1 _ ?_ []
      rw [← digit_bytes hg]
      intro b hb
      obtain ⟨d', hd', rfl⟩ := List.mem_map.1 hb
      have : ∀ d : Fin 10, BitVec.ofNat 8 (48 + d.val) ≠ 0#8 := by decide +kernel
      exact this ⟨d', hg d' hd'⟩

/-- The passes over a modifier. -/
theorem pfConvLoop_mod {junk : Nat → Byte} {m : Mem} {fmt a buf b size : Nat} {args : List PfArg} {fl : FmtFlags}
    {c : FmtMod} (hc : c.Ok) (hw : (fl.mod c).width ≤ 2147483647)
    (hh : m.Holds (fmt + (a + 1)) c.text) {x : Byte} (hx : m (fmt + (a + c.text.length + 1)) = some x) (hx0 : x ≠ 0#8) :
    pfConvLoop junk m fmt a buf b size args (toPf fl)
      = pfConvLoop junk m fmt (a + c.text.length) buf b size args (toPf (fl.mod c)) := by
  cases c with
  | chunk c => exact pfConvLoop_chunk hc.1 hc.2 hw hh hx hx0
  | group z ds g =>
    obtain ⟨c1, c2, c3, c4⟩ := hc
    simp only [FmtMod.text] at hh hx ⊢
    rw [holds_append] at hh
    obtain ⟨a', ha', hm', z', hz, hd⟩ := chunk_read (fl := fl) c1 hw hh.1
    have h2 : m.Holds (fmt + (a' + 1)) (g.map (fun d => BitVec.ofNat 8 (48 + d)) ++ [41#8]) := by
      rw [ha', ← Nat.add_assoc]; exact hh.2
    simp only [List.length_append, List.length_map, List.length_singleton] at hx ⊢
    rw [pfConvLoop, hz]
    simp only [Res.ok_bind]
    rw [hd]
    simp only [Res.ok_bind]
    rw [load_some hm']
    simp only [Res.ok_bind]
    rw [show ({ toPf fl with padding := (toPf (fl.num ⟨z, ds, 40#8⟩)).padding, pad := (toPf (fl.num ⟨z, ds, 40#8⟩)).pad } : PfFlags)
      = toPf (fl.num ⟨z, ds, 40#8⟩) from rfl]
    have hsw : pfSwitch junk m fmt a' buf b size args (toPf (fl.num ⟨z, ds, 40#8⟩)) 40#8
        = .ok (.more (if g = [] then a' + 1 else a' + g.length) (toPf (fl.mod (.group z ds g)))) := by
      unfold pfSwitch
      simp only [BitVec.reduceEq, if_false, if_true]
      rw [fmtGroup_eq c2 c3 c4 h2]
      by_cases h0 : g = []
      · simp only [h0, if_true, Res.ok_bind]
        rfl
      · simp only [h0, if_false, Res.ok_bind, toPf, FmtFlags.mod, FmtFlags.num]
        rfl
    rw [hsw]
    simp only [Res.ok_bind]
    by_cases h0 : g = []
    · subst h0
      simp only [if_true, List.length_nil] at hx ⊢
      rw [load_some (a := fmt + (a' + 1 + 1)) (b := x) (by rw [← hx]; congr 1; omega)]
      simp only [Res.ok_bind]
      rw [if_pos hx0]
      congr 1; omega
    · have hbr : m (fmt + (a' + g.length + 1)) = some 41#8 := by
        have := (holds_cons.1 (holds_append.1 h2).2).1
        rw [← this, List.length_map]; congr 1; omega
      rw [if_neg h0, load_some hbr]
      simp only [Res.ok_bind]
      rw [if_pos (by decide)]
      have := @pfConvLoop_chunk junk m fmt (a' + g.length) buf b size args (fl.mod (.group z ds g)) ⟨false, [], 41#8⟩
        (by decide) (by decide) hw (by
          show m.Holds _ [41#8]
          rw [holds_cons]
          exact ⟨hbr, holds_nil _ _⟩) x (by
          show m (fmt + (a' + g.length + 1 + 1)) = _
          rw [← hx]; congr 1; omega) hx0
      rw [this]
      show pfConvLoop junk m fmt (a' + g.length + 1) buf b size args _ = _
      rw [show a' + g.length + 1 = a + ((Chunk.text ⟨z, ds, 40#8⟩).length + (g.length + 1)) by omega]
      congr 1
      simp [toPf, FmtFlags.chunk, FmtFlags.num]

/-- A chunk and a modifier start with a character that is not the NUL. -/
theorem chunk_first {c : Chunk} (h0 : c.ch ≠ 0#8) (hok : c.Ok) {m : Mem} {q : Nat} {l : List Byte}
    (hl : m.Holds q (c.text ++ l)) : ∃ x, m q = some x ∧ x ≠ 0#8 := by
  unfold Chunk.text at hl
  by_cases hz : c.zero = true
  · rw [if_pos hz] at hl
    exact ⟨_, (holds_cons.1 hl).1, by decide⟩
  · rw [if_neg hz] at hl
    cases hds : c.digits with
    | nil => rw [hds] at hl; exact ⟨_, (holds_cons.1 hl).1, h0⟩
    | cons d ds =>
      rw [hds] at hl
      refine ⟨_, (holds_cons.1 hl).1, ?_⟩
      have : ∀ d : Fin 10, BitVec.ofNat 8 (48 + d.val) ≠ 0#8 := by decide +kernel
      exact this ⟨d, hok.1 d (by simp [hds])⟩

theorem mod_first {c : FmtMod} (hok : c.Ok) {m : Mem} {q : Nat} {l : List Byte}
    (hl : m.Holds q (c.text ++ l)) : ∃ x, m q = some x ∧ x ≠ 0#8 := by
  cases c with
  | chunk c =>
    refine chunk_first (fun h0 => hok.2 (by simp [h0])) hok.1 hl
  | group z ds g =>
    simp only [FmtMod.text, List.append_assoc] at hl
    exact chunk_first (c := ⟨z, ds, 40#8⟩) (show (40#8 : Byte) ≠ 0#8 by decide) hok.1 hl

/-- What the loop of a conversion does: it runs the switch on the conversion character, with the
flags collected. -/
theorem pfConvLoop_eq {junk : Nat → Byte} {m : Mem} {fmt buf b size : Nat} {args : List PfArg}
    {last : Chunk} (hlast : last.Ok)
    {R : Res PfStep} {F : FmtFlags} {e : Nat}
    (hs : pfSwitch junk m fmt e buf b size args (toPf F) last.ch = R)
    (hch : last.ch ≠ 0#8)
    (hns : ∀ a' fl', R ≠ .ok (.more a' fl')) :
    ∀ (mods : List FmtMod) (a : Nat) (fl : FmtFlags),
      (∀ c ∈ mods, c.Ok) →
      (mods.foldl FmtFlags.mod fl).num last = F → F.width ≤ 2147483647 →
      m.Holds (fmt + (a + 1)) (mods.flatMap FmtMod.text ++ last.text) →
      a + (mods.flatMap FmtMod.text ++ last.text).length = e →
      pfConvLoop junk m fmt a buf b size args (toPf fl) = (R >>= fun r => .ok (r, e)) := by
  intro mods
  induction mods with
  | nil =>
    intro a fl _ hF hw hh he
    simp only [List.flatMap_nil, List.nil_append, List.foldl_nil] at hh hF he
    subst hF
    obtain ⟨a', ha', hm', z, hz, hd⟩ := chunk_read hlast hw hh
    rw [pfConvLoop, hz]
    simp only [Res.ok_bind]
    rw [hd]
    simp only [Res.ok_bind]
    rw [load_some hm']
    simp only [Res.ok_bind]
    rw [show ({ toPf fl with padding := (toPf (fl.num last)).padding, pad := (toPf (fl.num last)).pad } : PfFlags)
      = toPf (fl.num last) from rfl]
    have ha : a' = e := by omega
    subst ha
    rw [hs]
    cases R with
    | ok r =>
      cases r with
      | more x y => exact absurd rfl (hns _ _)
      | done => rfl
      | over => rfl
    | ub => rfl
    | div => rfl
  | cons c mods ih =>
    intro a fl hmods hF hw hh he
    have hc := hmods c (by simp)
    simp only [List.flatMap_cons, List.append_assoc, List.foldl_cons] at hh hF he
    rw [holds_append] at hh
    have hwc : (fl.mod c).width ≤ 2147483647 := by
      have h1 := width_mono_mods mods (fl.mod c)
      have h2 : (mods.foldl FmtFlags.mod (fl.mod c)).width ≤
        ((mods.foldl FmtFlags.mod (fl.mod c)).num last).width := foldl_digits_le _ _
      rw [hF] at h2
      omega
    have h2 := hh.2
    rw [show fmt + (a + 1) + c.text.length = fmt + (a + c.text.length + 1) by omega] at h2
    have hnext : ∃ x, m (fmt + (a + c.text.length + 1)) = some x ∧ x ≠ 0#8 := by
      cases mods with
      | nil => exact chunk_first (l := []) hch hlast (by simpa using h2)
      | cons c' mods => exact mod_first (l := mods.flatMap FmtMod.text ++ last.text) (hmods c' (by simp)) (by simpa using h2)
    obtain ⟨x, hx, hx0⟩ := hnext
    rw [pfConvLoop_mod hc hwc hh.1 hx hx0]
    exact ih (a + c.text.length) (fl.mod c) (fun c hc => hmods c (by simp [hc])) hF hw h2 (by
      simp only [List.length_append] at he ⊢; omega)

/-! ### The effect of a conversion -/

/-- The text `t` is what the conversion `k` yields, and it fits the space the code asks for. -/
def ConvOut (junk : Nat → Byte) (fl : FmtFlags) : Conv → List Byte → Prop
  | .pct, t => t = [37#8]
  | .dec v, t => t.length ≤ 13 ∧
      Converts (fun m d => itodec m v.toInt d (toPf fl).padding (toPf fl).sep (toPf fl).pad) t
  | .udec v, t => t.length ≤ 13 ∧
      Converts (fun m d => uitodec m v.toNat d (toPf fl).prec (toPf fl).sep (toPf fl).pad) t
  | .ldec v, t => t.length ≤ 27 ∧ Converts (fun m d => ltodec m v.toInt d (toPf fl).prec (toPf fl).sep) t
  | .uldec v, t => t.length ≤ 27 ∧ Converts (fun m d => ultodec m v.toNat d (toPf fl).prec (toPf fl).sep) t
  | .hex v, t => t.length ≤ 8 ∧ Converts (fun m d => itohex m v d (toPf fl).padding) t
  | .HEX v, t => t.length ≤ 8 ∧ Converts (fun m d => itoHEX m v d (toPf fl).padding) t
  | .oct v, t => t.length ≤ 16 ∧ Converts (fun m d => itooct junk m v.toInt d) t
  | .bin v, t => 1 ≤ t.length ∧ t.length ≤ 32 ∧
      Converts (fun m d => itobin_ m v d (toPf fl).prec (if (toPf fl).groups ≠ 0 then (toPf fl).groups else 32)) t
  | .str _ s, t => t = List.replicate (fl.width - s.length) 32#8 ++ s
  | .chr v, t => t = [v.setWidth 8]
  | .dbl d, t => t.length ≤ 27 ∧
      Converts (fun m x => dtodec m d x (if (toPf fl).padding = 0 then 9 else (toPf fl).padding)) t

/-- The text of an item. -/
def ItemOut (junk : Nat → Byte) : Item → List Byte → Prop
  | .lit c, t => t = [c]
  | .conv mods z ds k, t => ConvOut junk (convFlags mods z ds k) k t

/-- A string is never extended by blanks. -/
def NoPad : Item → Prop
  | .conv mods z ds (.str p s) => (convFlags mods z ds (.str p s)).width ≤ s.length
  | _ => True

/-- One step wrote the text `t` (and perhaps a NUL behind it), and there is still room for one byte. -/
def StepDone (m : Mem) (buf b size : Nat) (args : List PfArg) (t : List Byte) (r : PfStep) : Prop :=
  ∃ tail : List Byte, (tail = [] ∨ tail = [0#8]) ∧ b + t.length < size ∧
    r = .done (m.write (buf + b) (t ++ tail)) (b + t.length) args

/-- One step stopped, having written only inside the buffer, because there was too little room for `t`. -/
def StepOver (k : Nat) (m : Mem) (buf b size : Nat) (t : List Byte) (r : PfStep) : Prop :=
  ∃ (l : List Byte) (b' : Nat), b + l.length ≤ size ∧ b' ≤ size ∧ size ≤ b + t.length + k ∧
    r = .over (m.write (buf + b) l) b'

theorem pfChar_step {k : Nat} {m : Mem} {buf b size cap : Nat} {args : List PfArg} {x : Byte} (hm : m.Mapped buf cap)
    (hcap : size ≤ cap ∨ b + 1 < cap) (hb : b < size) : ∃ r, pfChar m buf b size args x = .ok r ∧
      (StepDone m buf b size args [x] r ∨ StepOver k m buf b size [x] r) := by
  obtain ⟨c, hc⟩ := hm b (by omega)
  unfold pfChar
  rw [store_some hc]
  simp only [Res.ok_bind]
  by_cases h : b + 1 ≥ size
  · rw [if_pos h]
    exact ⟨_, rfl, Or.inr ⟨[x], b + 1, by simp; omega, by omega, by simp; omega, by rw [write_singleton]⟩⟩
  · rw [if_neg h]
    exact ⟨_, rfl, Or.inl ⟨[], Or.inl rfl, by simp; omega, by simp [write_singleton]⟩⟩

theorem pfInt_step {k : Nat} {m : Mem} {buf b size cap need : Nat} {args : List PfArg} {v : BitVec 32}
    {f : BitVec 32 → Mem → Nat → Res (Mem × Int)} {t : List Byte} (hm : m.Mapped buf cap)
    (hcap : size ≤ cap ∨ b + t.length < cap)
    (hn : need ≤ k + t.length) (ht : t.length ≤ need) (hf : Converts (f v) t) :
    ∃ r, pfInt m buf b size need (.int v :: args) f = .ok r ∧
      (b < size → StepDone m buf b size args t r ∨ StepOver k m buf b size t r) := by
  unfold pfInt
  by_cases h : b + need ≥ size
  · rw [if_pos h]
    exact ⟨_, rfl, fun hb => Or.inr ⟨[], b, by simp; omega, by omega, by omega, by simp⟩⟩
  · rw [if_neg h]
    have := hf m (buf + b) (fun i hi => by
      obtain ⟨c, hc⟩ := hm (b + i) (by omega)
      exact ⟨c, by rw [← hc]; congr 1; omega⟩)
    simp only [vaInt, Res.ok_bind, this]
    exact ⟨_, rfl, fun hb => Or.inl ⟨[0#8], Or.inr rfl, by omega, by simp⟩⟩

theorem pfLong_step {k : Nat} {m : Mem} {buf b size cap need : Nat} {args : List PfArg} {v : BitVec 64}
    {f : BitVec 64 → Mem → Nat → Res (Mem × Int)} {t : List Byte} (hm : m.Mapped buf cap)
    (hcap : size ≤ cap ∨ b + t.length < cap)
    (hn : need ≤ k + t.length) (ht : t.length ≤ need) (hf : Converts (f v) t) :
    ∃ r, pfLong m buf b size need (.long v :: args) f = .ok r ∧
      (b < size → StepDone m buf b size args t r ∨ StepOver k m buf b size t r) := by
  unfold pfLong
  by_cases h : b + need ≥ size
  · rw [if_pos h]
    exact ⟨_, rfl, fun hb => Or.inr ⟨[], b, by simp; omega, by omega, by omega, by simp⟩⟩
  · rw [if_neg h]
    have := hf m (buf + b) (fun i hi => by
      obtain ⟨c, hc⟩ := hm (b + i) (by omega)
      exact ⟨c, by rw [← hc]; congr 1; omega⟩)
    simp only [vaLong, Res.ok_bind, this]
    exact ⟨_, rfl, fun hb => Or.inl ⟨[0#8], Or.inr rfl, by omega, by simp⟩⟩

theorem pfDbl_step {k : Nat} {m : Mem} {buf b size cap : Nat} {args : List PfArg} {d padding : Int} {t : List Byte} (hm : m.Mapped buf cap)
    (hcap : size ≤ cap ∨ b + t.length < cap) (hn : 27 ≤ k + t.length) (ht : t.length ≤ 27)
    (hf : Converts (fun m x => dtodec m d x (if padding = 0 then 9 else padding)) t) :
    ∃ r, pfDbl m buf b size (.dbl d :: args) padding = .ok r ∧
      (b < size → StepDone m buf b size args t r ∨ StepOver k m buf b size t r) := by
  unfold pfDbl
  by_cases h : b + 27 ≥ size
  · rw [if_pos h]
    exact ⟨_, rfl, fun hb => Or.inr ⟨[], b, by simp; omega, by omega, by omega, by simp⟩⟩
  · rw [if_neg h]
    have := hf m (buf + b) (fun i hi => by
      obtain ⟨c, hc⟩ := hm (b + i) (by omega)
      exact ⟨c, by rw [← hc]; congr 1; omega⟩)
    simp only [vaDbl, Res.ok_bind, this]
    exact ⟨_, rfl, fun hb => Or.inl ⟨[0#8], Or.inr rfl, by omega, by simp⟩⟩

theorem pfStrCopy_eq {buf size cap : Nat} {args : List PfArg} : ∀ (s : List Byte) (m : Mem) (b p : Nat),
    m.Mapped buf cap → (size ≤ cap ∨ b + s.length < cap) → m.IsStr p s → (p + s.length < buf ∨ buf + cap ≤ p) → b < size →
    pfStrCopy m buf b size p args =
      if b + s.length < size then .ok (.done (m.write (buf + b) s) (b + s.length) args)
      else .ok (.over (m.write (buf + b) (s.take (size - b))) size) := by
  intro s
  induction s with
  | nil =>
    intro m b p hm hcap hs hd hb
    rw [pfStrCopy, load_some (isStr_nil.1 hs)]
    simp [hb]
  | cons c s ih =>
    intro m b p hm hcap hs hd hb
    obtain ⟨h1, h2, h3⟩ := isStr_cons.1 hs
    rw [pfStrCopy, load_some h1]
    simp only [Res.ok_bind]
    rw [if_pos h2]
    rw [List.length_cons] at hcap
    obtain ⟨x, hx⟩ := hm b (by omega)
    rw [store_some hx]
    simp only [Res.ok_bind, List.length_cons] at hd ⊢
    by_cases h : b + 1 ≥ size
    · rw [if_pos h, if_neg (by omega)]
      have : size - b = 1 := by omega
      have hsz : b + 1 = size := by omega
      rw [this, hsz]
      simp [write_singleton]
    · rw [if_neg h, ih (m.upd (buf + b) c) (b + 1) (p + 1) (hm.upd _ _) (by omega) (h3.upd _ (by omega)) (by omega) (by omega)]
      rw [show buf + (b + 1) = buf + b + 1 by omega, ← write_cons]
      by_cases h' : b + (s.length + 1) < size
      · rw [if_pos (by omega), if_pos h']
        congr 2; omega
      · rw [if_neg (by omega), if_neg h']
        rw [show size - b = (size - (b + 1)) + 1 by omega, List.take_succ_cons, ← write_cons]

theorem pfStrPad_eq {buf : Nat} : ∀ (n : Nat) (m : Mem) (b : Nat), m.Mapped (buf + b) n →
    pfStrPad m buf b n = .ok (m.write (buf + b) (List.replicate n 32#8), b + n) := by
  intro n
  induction n with
  | zero => intro m b _; simp [pfStrPad]
  | succ n ih =>
    intro m b hm
    obtain ⟨a1, b1⟩ := store_step hm 32#8
    rw [pfStrPad, a1]
    simp only [Res.ok_bind]
    rw [show buf + b + 1 = buf + (b + 1) by omega] at b1
    rw [ih _ _ b1, List.replicate_succ, write_cons]
    congr 2; omega

theorem mapped_in {m : Mem} {buf size b n : Nat} (hm : m.Mapped buf size) (h : b + n ≤ size) :
    m.Mapped (buf + b) n := by
  intro i hi
  obtain ⟨c, hc⟩ := hm (b + i) (by omega)
  exact ⟨c, by rw [← hc]; congr 1; omega⟩

theorem pfStr_step {k : Nat} {m : Mem} {buf b size cap p w : Nat} {args : List PfArg} {s : List Byte}
    (hm : m.Mapped buf cap) (hcap : size ≤ cap ∨ b + (w - s.length) + s.length < cap) (hs : m.IsStr p s)
    (hd : p + s.length < buf ∨ buf + cap ≤ p) (hp : p ≠ 0)
    (hl : s.length < 2147483648) (hb : b < size) (hw : w ≤ s.length ∨ b + w < size) :
    ∃ r, pfStr m buf b size (.str p :: args) (w : Int) = .ok r ∧
      (StepDone m buf b size args (List.replicate (w - s.length) 32#8 ++ s) r ∨
        StepOver k m buf b size (List.replicate (w - s.length) 32#8 ++ s) r) := by
  unfold pfStr
  simp only [vaStr, Res.ok_bind]
  have hlen : strlen m p = .ok s.length := by
    unfold strlen
    rw [if_neg hp]
    have := @strlenLoop_eq m p 0 s (by simpa using hs) (by omega)
    simpa using this
  have key : ∃ r, pfStrCopy (m.write (buf + b) (List.replicate (w - s.length) 32#8)) buf (b + (w - s.length)) size p args = .ok r ∧
      (StepDone m buf b size args (List.replicate (w - s.length) 32#8 ++ s) r ∨
        StepOver k m buf b size (List.replicate (w - s.length) 32#8 ++ s) r) := by
    have hbw : b + (w - s.length) < size := by omega
    rw [pfStrCopy_eq s _ _ p (hm.write _ _) hcap (hs.write (by simp; omega)) hd hbw]
    have e : ∀ l : List Byte, (m.write (buf + b) (List.replicate (w - s.length) 32#8)).write
        (buf + (b + (w - s.length))) l = m.write (buf + b) (List.replicate (w - s.length) 32#8 ++ l) := by
      intro l
      rw [write_append, List.length_replicate, Nat.add_assoc]
    by_cases h : b + (w - s.length) + s.length < size
    · rw [if_pos h, e]
      exact ⟨_, rfl, Or.inl ⟨[], Or.inl rfl, by simp; omega, by simp; omega⟩⟩
    · rw [if_neg h, e]
      exact ⟨_, rfl, Or.inr ⟨_, _, by simp; omega, Nat.le_refl _, by simp; omega, rfl⟩⟩
  by_cases hw0 : (w : Int) ≠ 0
  · rw [if_pos hw0, hlen]
    simp only [Res.ok_bind]
    rw [show ((w : Int) - (s.length : Int)).toNat = w - s.length by omega]
    rw [pfStrPad_eq _ _ _ (mapped_in hm (by omega))]
    simpa only [Res.ok_bind] using key
  · rw [if_neg hw0]
    have : w = 0 := by omega
    subst this
    simpa using key

/-- One item of the format. -/
theorem pfItem_step {k : Nat} {junk : Nat → Byte} {m : Mem} {fmt a buf b size cap : Nat} {args : List PfArg} {it : Item}
    {t : List Byte} (hok : it.Ok) (hstr : it.StrOk m buf cap) (ht : ItemOut junk it t)
    (hm : m.Mapped buf cap) (hcap : size ≤ cap ∨ b + t.length < cap) (hb : b < size) (hpad : NoPad it ∨ b + t.length < size)
    (hh : m.Holds (fmt + a) it.text) (hk : it.spare ≤ k) :
    ∃ c, m (fmt + a) = some c ∧ c ≠ 0#8 ∧
      ∃ r, pfItem junk m fmt a buf b size (it.args ++ args) c = .ok (r, a + it.text.length - 1) ∧
        (StepDone m buf b size args t r ∨ StepOver k m buf b size t r) := by
  cases it with
  | lit c =>
    refine ⟨c, (holds_cons.1 hh).1, hok.1, ?_⟩
    unfold pfItem
    rw [if_neg hok.2]
    obtain ⟨r, h1, h2⟩ := @pfChar_step k m buf b size cap args c hm (by have : t = [c] := ht; rw [this] at hcap; simpa using hcap) hb
    have : t = [c] := ht
    subst this
    refine ⟨r, ?_, h2⟩
    simp only [Item.args, List.nil_append, h1, Res.ok_bind, Item.text]
    rfl
  | conv mods z ds q =>
    obtain ⟨hk1, hk2, hk3, hk4⟩ := hok
    rw [Item.text, holds_cons] at hh
    refine ⟨37#8, hh.1, by decide, ?_⟩
    unfold pfItem
    rw [if_pos rfl]
    have hch : q.char ≠ 0#8 := by cases q <;> simp [Conv.char]
    have hpos : a + (37#8 :: (mods.flatMap FmtMod.text ++ Chunk.text ⟨z, ds, q.char⟩)).length - 1
      = a + (mods.flatMap FmtMod.text ++ Chunk.text ⟨z, ds, q.char⟩).length := by
      simp only [List.length_cons]; omega
    simp only [Item.args, Item.text, hpos]
    have hfin : ∀ a', ∃ r, pfSwitch junk m fmt a' buf b size (q.args ++ args) (toPf (convFlags mods z ds q)) q.char
        = .ok r ∧ (StepDone m buf b size args t r ∨ StepOver k m buf b size t r) := by
      intro a'
      cases q with
      | pct =>
        have : t = [37#8] := ht
        subst this
        exact @pfChar_step k m buf b size cap args 37#8 hm (by simpa using hcap) hb
      | dec v =>
        have hk : 27 ≤ k := hk
        obtain ⟨t1, t2⟩ : _ ∧ _ := ht
        have hlong : (toPf (convFlags mods z ds (.dec v))).mod = false := hk3
        obtain ⟨r, h1, h2⟩ := @pfInt_step k m buf b size cap 13 args v (fun x m d => itodec m x.toInt d (toPf (convFlags mods z ds (.dec v))).padding (toPf (convFlags mods z ds (.dec v))).sep (toPf (convFlags mods z ds (.dec v))).pad) t hm hcap (by omega) t1 t2
        refine ⟨r, ?_, h2 hb⟩
        rw [← h1]
        unfold pfSwitch
        simp [Conv.char, Conv.args, hlong]
      | udec v =>
        have hk : 27 ≤ k := hk
        obtain ⟨t1, t2⟩ : _ ∧ _ := ht
        have hlong : (toPf (convFlags mods z ds (.udec v))).mod = false := hk3
        obtain ⟨r, h1, h2⟩ := @pfInt_step k m buf b size cap 13 args v (fun x m d => uitodec m x.toNat d (toPf (convFlags mods z ds (.udec v))).prec (toPf (convFlags mods z ds (.udec v))).sep (toPf (convFlags mods z ds (.udec v))).pad) t hm hcap (by omega) t1 t2
        refine ⟨r, ?_, h2 hb⟩
        rw [← h1]
        unfold pfSwitch
        simp [Conv.char, Conv.args, hlong]
      | ldec v =>
        have hk : 27 ≤ k := hk
        obtain ⟨t1, t2⟩ : _ ∧ _ := ht
        have hlong : (toPf (convFlags mods z ds (.ldec v))).mod = true := hk3
        obtain ⟨r, h1, h2⟩ := @pfLong_step k m buf b size cap 27 args v (fun x m d => ltodec m x.toInt d (toPf (convFlags mods z ds (.ldec v))).prec (toPf (convFlags mods z ds (.ldec v))).sep) t hm hcap (by omega) t1 t2
        refine ⟨r, ?_, h2 hb⟩
        rw [← h1]
        unfold pfSwitch
        simp [Conv.char, Conv.args, hlong]
      | uldec v =>
        have hk : 27 ≤ k := hk
        obtain ⟨t1, t2⟩ : _ ∧ _ := ht
        have hlong : (toPf (convFlags mods z ds (.uldec v))).mod = true := hk3
        obtain ⟨r, h1, h2⟩ := @pfLong_step k m buf b size cap 27 args v (fun x m d => ultodec m x.toNat d (toPf (convFlags mods z ds (.uldec v))).prec (toPf (convFlags mods z ds (.uldec v))).sep) t hm hcap (by omega) t1 t2
        refine ⟨r, ?_, h2 hb⟩
        rw [← h1]
        unfold pfSwitch
        simp [Conv.char, Conv.args, hlong]
      | hex v =>
        have hk : 27 ≤ k := hk
        obtain ⟨t1, t2⟩ : _ ∧ _ := ht
        obtain ⟨r, h1, h2⟩ := @pfInt_step k m buf b size cap 8 args v (fun x m d => itohex m x d (toPf (convFlags mods z ds (.hex v))).padding) t hm hcap (by omega) t1 t2
        refine ⟨r, ?_, h2 hb⟩
        rw [← h1]
        unfold pfSwitch
        simp [Conv.char, Conv.args]
      | HEX v =>
        have hk : 27 ≤ k := hk
        obtain ⟨t1, t2⟩ : _ ∧ _ := ht
        obtain ⟨r, h1, h2⟩ := @pfInt_step k m buf b size cap 8 args v (fun x m d => itoHEX m x d (toPf (convFlags mods z ds (.HEX v))).padding) t hm hcap (by omega) t1 t2
        refine ⟨r, ?_, h2 hb⟩
        rw [← h1]
        unfold pfSwitch
        simp [Conv.char, Conv.args]
      | oct v =>
        have hk : 27 ≤ k := hk
        obtain ⟨t1, t2⟩ : _ ∧ _ := ht
        obtain ⟨r, h1, h2⟩ := @pfInt_step k m buf b size cap 16 args v (fun x m d => itooct junk m x.toInt d) t hm hcap (by omega) t1 t2
        refine ⟨r, ?_, h2 hb⟩
        rw [← h1]
        unfold pfSwitch
        simp [Conv.char, Conv.args]
      | bin v =>
        obtain ⟨t0, t1, t2⟩ : _ ∧ _ ∧ _ := ht
        have hk : 31 ≤ k := hk
        obtain ⟨r, h1, h2⟩ := @pfInt_step k m buf b size cap 32 args v (fun x m d => itobin_ m x d (toPf (convFlags mods z ds (.bin v))).prec (if (toPf (convFlags mods z ds (.bin v))).groups ≠ 0 then (toPf (convFlags mods z ds (.bin v))).groups else 32)) t hm hcap (by omega) t1 t2
        refine ⟨r, ?_, h2 hb⟩
        rw [← h1]
        unfold pfSwitch
        simp [Conv.char, Conv.args]
      | str p s =>
        have : t = List.replicate ((convFlags mods z ds (.str p s)).width - s.length) 32#8 ++ s := ht
        subst this
        obtain ⟨s1, s2, s3, s4⟩ := hstr
        have hw : (convFlags mods z ds (.str p s)).width ≤ s.length ∨ b + (convFlags mods z ds (.str p s)).width < size := by
          rcases hpad with h | h
          · exact Or.inl h
          · simp at h; omega
        obtain ⟨r, h1, h2⟩ := @pfStr_step k m buf b size cap p (convFlags mods z ds (.str p s)).width args s hm (by simp at hcap; omega) s1 s2 s3 s4 hb hw
        refine ⟨r, ?_, h2⟩
        rw [← h1]
        unfold pfSwitch
        simp [Conv.char, Conv.args, toPf]
      | chr v =>
        have : t = [v.setWidth 8] := ht
        subst this
        obtain ⟨r, h1, h2⟩ := @pfChar_step k m buf b size cap args (v.setWidth 8) hm (by simpa using hcap) hb
        refine ⟨r, ?_, h2⟩
        rw [← h1]
        unfold pfSwitch
        simp [Conv.char, Conv.args, vaInt]
      | dbl d =>
        have hk : 27 ≤ k := hk
        obtain ⟨t1, t2⟩ : _ ∧ _ := ht
        obtain ⟨r, h1, h2⟩ := @pfDbl_step k m buf b size cap args d (toPf (convFlags mods z ds (.dbl d))).padding t hm hcap (by omega) t1 t2
        refine ⟨r, ?_, h2 hb⟩
        rw [← h1]
        unfold pfSwitch
        simp [Conv.char, Conv.args]
    obtain ⟨r, h1, h2⟩ := hfin (a + (mods.flatMap FmtMod.text ++ Chunk.text ⟨z, ds, q.char⟩).length)
    refine ⟨r, ?_, h2⟩
    refine pfConvLoop_eq hk2 h1 hch ?_ mods a FmtFlags.none hk1 rfl hk4 hh.2 rfl
    intro a' fl' hr
    have hr := Res.ok.inj hr
    rcases h2 with ⟨_, _, _, h⟩ | ⟨_, _, _, _, _, h⟩ <;> rw [h] at hr <;> cases hr

/-! ### The whole format -/

theorem write_write_same (m : Mem) (q : Nat) (k l : List Byte) :
    (m.write q k).write q l = m.write q (l ++ k.drop l.length) := by
  funext a
  unfold Mem.write
  by_cases h : q ≤ a
  · simp only [if_pos h]
    by_cases h2 : a - q < l.length
    · rw [List.getElem?_append_left h2, List.getElem?_eq_getElem h2]
    · rw [List.getElem?_eq_none (by omega : l.length ≤ a - q), List.getElem?_append_right (by omega),
        List.getElem?_drop, show l.length + (a - q - l.length) = a - q by omega]
  · simp only [if_neg h]

theorem write_over (m : Mem) (p : Nat) (o tail l : List Byte) (h : tail.length ≤ 1) :
    ((m.write p (o ++ tail)).write (p + o.length) l)
      = m.write p (o ++ if l = [] then tail else l) := by
  rw [write_append, write_write_same, ← write_append]
  by_cases hl : l = []
  · simp [hl]
  · rw [if_neg hl, List.drop_eq_nil_of_le, List.append_nil]
    have := List.length_pos_iff.2 hl
    omega

/-- A list of items: either the whole text is written, or SIGSEGV is raised for lack of room. -/
theorem vsnprintfLoop_run {k : Nat} {junk : Nat → Byte} {m0 : Mem} {buf size cap fmt : Nat} (hm : m0.Mapped buf cap) :
    ∀ (its : List Item) (ts : List (List Byte)) (a : Nat) (o tail : List Byte),
      List.Forall₂ (ItemOut junk) its ts → (∀ it ∈ its, it.spare ≤ k) → (tail = [] ∨ tail = [0#8]) → o.length < size →
      (∀ it ∈ its, it.Ok ∧ it.StrOk m0 buf cap) → (size ≤ cap ∨ o.length + ts.flatten.length < cap) →
      (∀ it ∈ its, NoPad it) ∨ o.length + ts.flatten.length + k < size →
      m0.Holds (fmt + a) (fmtText its ++ [0#8]) →
      (fmt + a + (fmtText its).length < buf ∨ buf + cap ≤ fmt + a) →
      (vsnprintfLoop junk (m0.write buf (o ++ tail)) fmt a buf o.length size (fmtArgs its)
          = .ok (m0.write buf (o ++ ts.flatten ++ [0#8]), ((o ++ ts.flatten).length : Int), false) ∧
        (o ++ ts.flatten).length < size) ∨
      ∃ (l : List Byte) (b' : Nat), l.length ≤ size ∧ b' ≤ size ∧ size ≤ (o ++ ts.flatten).length + k ∧
        vsnprintfLoop junk (m0.write buf (o ++ tail)) fmt a buf o.length size (fmtArgs its)
          = .ok (m0.write buf l, -(b' : Int), true) := by
  intro its
  induction its with
  | nil =>
    intro ts a o tail hts hk htail ho _ hcap _ hh hd
    cases hts
    left
    simp only [List.flatten_nil, List.length_nil, Nat.add_zero] at hcap
    have htl : tail.length ≤ 1 := by rcases htail with h | h <;> simp [h]
    simp only [fmtText, List.flatMap_nil, List.nil_append, List.length_nil, Nat.add_zero] at hh hd
    have h0 : (m0.write buf (o ++ tail)) (fmt + a) = some 0#8 := by
      rw [write_outside _ _ _ _ (by simp only [List.length_append]; omega)]
      exact (holds_cons.1 hh).1
    rw [vsnprintfLoop, load_some h0]
    simp only [Res.ok_bind]
    rw [if_neg (by simp)]
    obtain ⟨c, hc⟩ := hm.write buf (o ++ tail) o.length (by omega)
    rw [store_some hc, ← write_singleton, write_over _ _ _ _ _ htl]
    simp [ho]
  | cons it its ih =>
    intro ts a o tail hts hk htail ho hok hcap hpad hh hd
    cases hts with
    | @cons _ t _ ts ht hts =>
    have htl : tail.length ≤ 1 := by rcases htail with h | h <;> simp [h]
    simp only [fmtText, List.flatMap_cons, List.append_assoc, List.length_append] at hh hd
    rw [holds_append] at hh
    simp only [List.flatten_cons, List.length_append] at hcap
    have hin : o.length + tail.length ≤ cap := by omega
    have hhold : (m0.write buf (o ++ tail)).Holds (fmt + a) it.text :=
      hh.1.write (by simp only [List.length_append]; omega)
    have hstr : it.StrOk (m0.write buf (o ++ tail)) buf cap := by
      have h := (hok it (by simp)).2
      revert h
      unfold Item.StrOk
      split
      · rintro ⟨h1, h2, h3, h4⟩
        exact ⟨h1.write (by simp only [List.length_append]; omega), h2, h3, h4⟩
      · exact fun h => h
    have hpad1 : NoPad it ∨ o.length + t.length < size := by
      rcases hpad with h | h
      · exact Or.inl (h it (by simp))
      · right; simp only [List.flatten_cons, List.length_append] at h; omega
    obtain ⟨c, hc, hc0, r, hr, hcase⟩ := pfItem_step (junk := junk) (args := fmtArgs its)
      (hok it (by simp)).1 hstr ht (hm.write buf (o ++ tail)) (by omega) ho hpad1 hhold (hk it (by simp))
    have hstep : vsnprintfLoop junk (m0.write buf (o ++ tail)) fmt a buf o.length size (fmtArgs (it :: its))
        = (match (generalizing := false) r with
          | .done m b args => vsnprintfLoop junk m fmt (a + it.text.length) buf b size args
          | .over m b => .ok (m, -(b : Int), true)
          | .more _ _ => vsnprintfLoop junk (m0.write buf (o ++ tail)) fmt (a + it.text.length) buf o.length size
              (fmtArgs (it :: its))) := by
      have hpos : 0 < it.text.length := by
        cases it <;> simp [Item.text]
      rw [vsnprintfLoop, load_some hc]
      simp only [Res.ok_bind]
      rw [if_pos hc0, show fmtArgs (it :: its) = it.args ++ fmtArgs its from rfl, hr]
      simp only [Res.ok_bind]
      rw [show a + it.text.length - 1 + 1 = a + it.text.length by omega]
      cases r <;> rfl
    rcases hcase with ⟨tail', htail', hlt, hr'⟩ | ⟨l, b', hl, hb', hsz, hr'⟩
    · subst hr'
      rw [hstep]
      simp only []
      rw [write_over _ _ _ _ _ htl]
      have e : o ++ (if t ++ tail' = [] then tail else t ++ tail')
          = (o ++ t) ++ (if t ++ tail' = [] then tail else tail') := by
        split
        · rename_i h0
          have : t = [] := (List.append_eq_nil_iff.1 h0).1
          simp [this]
        · simp
      rw [e, show o.length + t.length = (o ++ t).length by simp]
      have htail2 : (if t ++ tail' = [] then tail else tail') = [] ∨ (if t ++ tail' = [] then tail else tail') = [0#8] := by
        split
        · exact htail
        · exact htail'
      have := ih ts (a + it.text.length) (o ++ t) (if t ++ tail' = [] then tail else tail') hts (fun x hx => hk x (by simp [hx])) htail2
        (by simpa using hlt) (fun x hx => hok x (by simp [hx])) (by simp only [List.length_append]; omega)
        (by
          rcases hpad with h | h
          · exact Or.inl (fun x hx => h x (by simp [hx]))
          · right; simp only [List.flatten_cons, List.length_append] at h ⊢; omega)
        (by rw [← Nat.add_assoc]; exact hh.2) (by unfold fmtText; omega)
      simpa only [List.flatten_cons, List.append_assoc] using this
    · right
      subst hr'
      rw [hstep]
      refine ⟨o ++ (if l = [] then tail else l), b', ?_, hb', ?_, ?_⟩
      · split <;> simp only [List.length_append] <;> omega
      · simp only [List.flatten_cons, List.length_append]; omega
      · simp only []
        rw [write_over _ _ _ _ _ htl]

theorem spare_le {its : List Item} {it : Item} (h : it ∈ its) : it.spare ≤ spare its := by
  induction its with
  | nil => simp at h
  | cons x its ih =>
    have e : spare (x :: its) = max x.spare (spare its) := rfl
    rcases List.mem_cons.1 h with h | h
    · subst h; omega
    · have := ih h; omega

/-- The whole format, in a buffer of `cap` bytes: either all that the size given says, or at least what the text needs. -/
theorem vsnprintf_cap {junk : Nat → Byte} {m : Mem} {buf size cap fmt : Nat} {its : List Item}
    {ts : List (List Byte)} (hm : m.Mapped buf cap) (hcap : size ≤ cap ∨ ts.flatten.length < cap) (hsize : 0 < size)
    (hts : List.Forall₂ (ItemOut junk) its ts) (hok : ∀ it ∈ its, it.Ok ∧ it.StrOk m buf cap)
    (hpad : (∀ it ∈ its, NoPad it) ∨ ts.flatten.length + spare its < size)
    (hf : m.Holds fmt (fmtText its ++ [0#8]))
    (hd : fmt + (fmtText its).length < buf ∨ buf + cap ≤ fmt) :
    (vsnprintf junk m buf size fmt (fmtArgs its)
        = .ok (m.write buf (ts.flatten ++ [0#8]), (ts.flatten.length : Int), false) ∧ ts.flatten.length < size) ∨
    ∃ (l : List Byte) (b' : Nat), l.length ≤ size ∧ b' ≤ size ∧ size ≤ ts.flatten.length + spare its ∧
      vsnprintf junk m buf size fmt (fmtArgs its) = .ok (m.write buf l, -(b' : Int), true) := by
  have := vsnprintfLoop_run (k := spare its) (junk := junk) (fmt := fmt) hm its ts 0 [] [] hts (fun it hit => spare_le hit) (Or.inl rfl) (by simpa using hsize) hok
    (by simpa using hcap) (by simpa using hpad) (by simpa using hf) (by simpa using hd)
  simpa [vsnprintf] using this

/-- The whole format. -/
theorem vsnprintf_run {junk : Nat → Byte} {m : Mem} {buf size fmt : Nat} {its : List Item}
    {ts : List (List Byte)} (hm : m.Mapped buf size) (hsize : 0 < size)
    (hts : List.Forall₂ (ItemOut junk) its ts) (hok : ∀ it ∈ its, it.Ok ∧ it.StrOk m buf size)
    (hpad : (∀ it ∈ its, NoPad it) ∨ ts.flatten.length + spare its < size)
    (hf : m.Holds fmt (fmtText its ++ [0#8]))
    (hd : fmt + (fmtText its).length < buf ∨ buf + size ≤ fmt) :
    (vsnprintf junk m buf size fmt (fmtArgs its)
        = .ok (m.write buf (ts.flatten ++ [0#8]), (ts.flatten.length : Int), false) ∧ ts.flatten.length < size) ∨
    ∃ (l : List Byte) (b' : Nat), l.length ≤ size ∧ b' ≤ size ∧ size ≤ ts.flatten.length + spare its ∧
      vsnprintf junk m buf size fmt (fmtArgs its) = .ok (m.write buf l, -(b' : Int), true) := by
  exact vsnprintf_cap hm (Or.inl (Nat.le_refl _)) hsize hts hok hpad hf hd

/-- A format that starts with a conversion whose execution is undefined. -/
theorem vsnprintf_ub {junk : Nat → Byte} {m : Mem} {buf size fmt : Nat} {args : List PfArg}
    {mods : List FmtMod} {last : Chunk} (hk1 : ∀ c ∈ mods, c.Ok) (hk2 : last.Ok) (hch : last.ch ≠ 0#8)
    (hw : ((mods.foldl FmtFlags.mod FmtFlags.none).num last).width ≤ 2147483647)
    (hf : m.Holds fmt (37#8 :: (mods.flatMap FmtMod.text ++ last.text)))
    (h : ∀ a, pfSwitch junk m fmt a buf 0 size args (toPf ((mods.foldl FmtFlags.mod FmtFlags.none).num last)) last.ch = .ub) :
    vsnprintf junk m buf size fmt args = .ub := by
  rw [holds_cons] at hf
  have := pfConvLoop_eq hk2 (h (0 + (mods.flatMap FmtMod.text ++ last.text).length)) hch (by simp)
    mods 0 FmtFlags.none hk1 rfl hw hf.2 rfl
  unfold vsnprintf
  rw [vsnprintfLoop, Nat.add_zero, load_some hf.1]
  simp only [Res.ok_bind]
  rw [if_pos (by decide), pfItem, if_pos rfl]
  rw [show toPf FmtFlags.none = pfInit from rfl] at this
  rw [this]
  rfl

end Minilib

import Verif.Model.Shrinkelf
import Verif.Spec.Shrinkelf
import Verif.Props.Syscall
/-
Lemmas for C90.
-/

set_option autoImplicit false

namespace Minilib
open Spec

theorem num_drop (f : List Byte) (a : Nat) : ∀ (n off : Nat), num (f.drop a) off n = num f (a + off) n := by
  intro n
  induction n with
  | zero => intro off; rfl
  | succ n ih =>
    intro off
    rw [num, num, ih]
    unfold byteAt
    rw [List.getD_eq_getElem?_getD, List.getD_eq_getElem?_getD, List.getElem?_drop, Nat.add_assoc]

theorem num_congr {f g : List Byte} : ∀ (n a b : Nat), (∀ k < n, byteAt f (a + k) = byteAt g (b + k)) → num f a n = num g b n := by
  intro n
  induction n with
  | zero => intros; rfl
  | succ n ih =>
    intro a b h
    rw [num, num, ih (a + 1) (b + 1) (fun k hk => by
      have := h (k + 1) (by omega)
      rwa [show a + (k + 1) = a + 1 + k by omega, show b + (k + 1) = b + 1 + k by omega] at this)]
    have := h 0 (by omega)
    rw [Nat.add_zero, Nat.add_zero] at this
    rw [this]

theorem leNum_take (l : List Byte) : ∀ (n : Nat), leNum (l.take n) = num l 0 n := by
  intro n
  induction n generalizing l with
  | zero => rfl
  | succ n ih =>
    cases l with
    | nil =>
      have : ∀ n a, num [] a n = 0 := by
        intro n
        induction n with
        | zero => intro a; rfl
        | succ n ih => intro a; rw [num, ih]; rfl
      rw [this]; rfl
    | cons b l =>
      rw [List.take_succ_cons, leNum, ih, num]
      have := num_drop (b :: l) 1 n 0
      simp only [List.drop_succ_cons, List.drop_zero] at this
      rw [this]
      rfl

theorem field_num (s : List Byte) (off n : Nat) : field s off n = num s off n := by
  unfold field
  rw [leNum_take, num_drop]
  rfl

theorem num_lt (f : List Byte) : ∀ n off, num f off n < 256 ^ n := by
  intro n
  induction n with
  | zero => intro off; simp [num]
  | succ n ih =>
    intro off
    rw [num, Nat.pow_succ]
    have := ih (off + 1)
    have := (byteAt f off).isLt
    omega

theorem leBytes_length : ∀ n v, (leBytes n v).length = n := by
  intro n
  induction n with
  | zero => intro v; rfl
  | succ n ih => intro v; simp [leBytes, ih]

theorem num_leBytes (g : List Byte) : ∀ (n v off : Nat), (∀ k < n, byteAt g (off + k) = byteAt (leBytes n v) k) → v < 256 ^ n → num g off n = v := by
  intro n
  induction n with
  | zero => intro v off _ hv; simp at hv; rw [hv]; rfl
  | succ n ih =>
    intro v off h hv
    rw [num]
    have h0 := h 0 (by omega)
    have e0 : byteAt (leBytes (n + 1) v) 0 = BitVec.ofNat 8 v := rfl
    rw [Nat.add_zero, e0] at h0
    rw [h0, ih (v / 256) (off + 1) (fun k hk => by
      have := h (k + 1) (by omega)
      rw [show off + 1 + k = off + (k + 1) by omega, this]
      rfl) (by rw [Nat.pow_succ] at hv; omega)]
    rw [BitVec.toNat_ofNat]
    omega

theorem byteAt_append (a b : List Byte) (x : Nat) : byteAt (a ++ b) x = if x < a.length then byteAt a x else byteAt b (x - a.length) := by
  unfold byteAt
  simp only [List.getD_eq_getElem?_getD]
  by_cases h : x < a.length
  · rw [if_pos h, List.getElem?_append_left h]
  · rw [if_neg h, List.getElem?_append_right (by omega)]

theorem byteAt_take (a : List Byte) (n x : Nat) (h : x < n) : byteAt (a.take n) x = byteAt a x := by
  unfold byteAt
  simp only [List.getD_eq_getElem?_getD]
  rw [List.getElem?_take_of_lt h]

theorem byteAt_drop (a : List Byte) (n x : Nat) : byteAt (a.drop n) x = byteAt a (n + x) := by
  unfold byteAt
  simp only [List.getD_eq_getElem?_getD, List.getElem?_drop]

theorem byteAt_ge (a : List Byte) (x : Nat) (h : a.length ≤ x) : byteAt a x = 0#8 := by
  unfold byteAt
  rw [List.getD_eq_getElem?_getD, List.getElem?_eq_none h]
  rfl

theorem byteAt_replicate (n x : Nat) : byteAt (List.replicate n 0#8) x = 0#8 := by
  unfold byteAt
  rw [List.getD_eq_getElem?_getD, List.getElem?_replicate]
  split <;> rfl

theorem patch_length {buf src : List Byte} {pos : Nat} (h : pos + src.length ≤ buf.length) : (patch buf pos src).length = buf.length := by
  unfold patch
  simp
  omega

theorem byteAt_patch {buf src : List Byte} {pos : Nat} (h : pos + src.length ≤ buf.length) (x : Nat) :
    byteAt (patch buf pos src) x = if pos ≤ x ∧ x < pos + src.length then byteAt src (x - pos) else byteAt buf x := by
  unfold patch
  have hl : (buf.take pos).length = pos := by rw [List.length_take]; omega
  rw [byteAt_append, byteAt_append, List.length_append, hl]
  by_cases h1 : x < pos
  · rw [if_pos (by omega), if_pos h1, if_neg (by omega), byteAt_take _ _ _ h1]
  · by_cases h2 : x < pos + src.length
    · rw [if_pos h2, if_neg h1, if_pos (by omega)]
    · rw [if_neg h2, if_neg (by omega), byteAt_drop]
      congr 1
      omega

theorem writeAt_length (f : List Byte) (pos : Nat) (b : List Byte) : (writeAt f pos b).length = max f.length (pos + b.length) ∨ b = [] := by
  by_cases hb : b = []
  · exact .inr hb
  · left
    have : b.length ≠ 0 := by simpa using hb
    unfold writeAt
    simp
    omega

theorem byteAt_writeAt (f : List Byte) (pos : Nat) (b : List Byte) (x : Nat) :
    byteAt (writeAt f pos b) x = if pos ≤ x ∧ x < pos + b.length then byteAt b (x - pos) else byteAt f x := by
  unfold writeAt
  have hl : ((f ++ List.replicate (pos - f.length) 0#8).take pos).length = pos := by simp; omega
  rw [byteAt_append, byteAt_append, List.length_append, hl]
  by_cases h1 : x < pos
  · rw [if_pos (by omega), if_pos h1, if_neg (by omega), byteAt_take _ _ _ h1, byteAt_append]
    split
    · rfl
    · rename_i h
      rw [byteAt_replicate, byteAt_ge f x (by omega)]
  · by_cases h2 : x < pos + b.length
    · rw [if_pos h2, if_neg h1, if_pos (by omega)]
    · rw [if_neg h2, if_neg (by omega), byteAt_drop]
      congr 1
      omega

/-! ### Regions -/

/-- Regions in order, with gaps between them, all below `B`. -/
def RChain (B : Nat) : Nat → List Region → Prop
  | _, [] => True
  | lo, r :: rs => lo ≤ r.offset ∧ 0 < r.filesz ∧ r.offset + r.filesz ≤ B ∧ RChain B (r.offset + r.filesz + 1) rs

/-- A position lies in one of the regions. -/
def Cover (rs : List Region) (x : Nat) : Prop := ∃ r ∈ rs, r.offset ≤ x ∧ x < r.offset + r.filesz

theorem RChain.mono {B : Nat} {lo lo' : Nat} {rs : List Region} (h : RChain B lo rs) (hl : lo' ≤ lo) : RChain B lo' rs := by
  cases rs with
  | nil => trivial
  | cons r rs => exact ⟨by have := h.1; omega, h.2⟩

theorem cover_cons {r : Region} {rs : List Region} {x : Nat} : Cover (r :: rs) x ↔ (r.offset ≤ x ∧ x < r.offset + r.filesz) ∨ Cover rs x := by
  unfold Cover
  simp

theorem cover_nil {x : Nat} : ¬ Cover [] x := by rintro ⟨r, hr, _⟩; cases hr

theorem mergeNext_spec {B : Nat} (hB : B < 4294967296) : ∀ (rest : List Region) (lo : Nat) (p : Region), lo ≤ p.offset → 0 < p.filesz → p.offset + p.filesz ≤ B →
    RChain B p.offset rest → RChain B lo (mergeNext p rest) ∧ ∀ x, Cover (mergeNext p rest) x ↔ (p.offset ≤ x ∧ x < p.offset + p.filesz) ∨ Cover rest x := by
  intro rest
  induction rest with
  | nil =>
    intro lo p h1 h2 h3 _
    exact ⟨⟨h1, h2, h3, trivial⟩, fun x => by rw [mergeNext, cover_cons]⟩
  | cons q rest ih =>
    intro lo p h1 h2 h3 hc
    obtain ⟨c1, c2, c3, c4⟩ := hc
    have ep : u64 (p.offset + p.filesz) = p.offset + p.filesz := by unfold u64; omega
    have eq : u64 (q.offset + q.filesz) = q.offset + q.filesz := by unfold u64; omega
    have es : u32 (u64 (sub64 q.offset p.offset + q.filesz)) = q.offset - p.offset + q.filesz := by unfold u32 u64 sub64; omega
    rw [mergeNext, ep, eq, es]
    by_cases hq : q.offset ≤ p.offset + p.filesz
    · rw [if_pos hq]
      by_cases hg : q.offset + q.filesz > p.offset + p.filesz
      · rw [if_pos hg]
        have := ih lo { p with filesz := q.offset - p.offset + q.filesz } h1 (by dsimp only; omega) (by dsimp only; omega) (c4.mono (by dsimp only; omega))
        refine ⟨this.1, fun x => ?_⟩
        rw [this.2, cover_cons]
        dsimp only
        constructor
        · rintro (h | h)
          · by_cases hx : x < p.offset + p.filesz
            · exact .inl ⟨h.1, hx⟩
            · exact .inr (.inl ⟨by omega, by omega⟩)
          · exact .inr (.inr h)
        · rintro (h | h | h)
          · exact .inl ⟨h.1, by omega⟩
          · exact .inl ⟨by omega, by omega⟩
          · exact .inr h
      · rw [if_neg hg]
        have := ih lo p h1 h2 h3 (c4.mono (by omega))
        refine ⟨this.1, fun x => ?_⟩
        rw [this.2, cover_cons]
        constructor
        · rintro (h | h)
          · exact .inl h
          · exact .inr (.inr h)
        · rintro (h | h | h)
          · exact .inl h
          · exact .inl ⟨by omega, by omega⟩
          · exact .inr h
    · rw [if_neg hq]
      exact ⟨⟨h1, h2, h3, by omega, c2, c3, c4⟩, fun x => by rw [cover_cons]⟩

theorem merge_prev {B : Nat} (hB : B < 4294967296) {lo so sz : Nat} {p : Region} {rest : List Region} (hc : RChain B lo (p :: rest)) (hp : p.offset < so)
    (hz : 0 < sz) (he : so + sz ≤ B) (hg : so ≤ p.offset + p.filesz) :
    RChain B lo (mergeNext (if u64 (so + sz) > u64 (p.offset + p.filesz) then { p with filesz := u32 (u64 (sub64 so p.offset + sz)) } else p) rest) ∧
    ∀ x, Cover (mergeNext (if u64 (so + sz) > u64 (p.offset + p.filesz) then { p with filesz := u32 (u64 (sub64 so p.offset + sz)) } else p) rest) x ↔
      (so ≤ x ∧ x < so + sz) ∨ Cover (p :: rest) x := by
  obtain ⟨c1, c2, c3, c4⟩ := hc
  have ep : u64 (p.offset + p.filesz) = p.offset + p.filesz := by unfold u64; omega
  have eq : u64 (so + sz) = so + sz := by unfold u64; omega
  have es : u32 (u64 (sub64 so p.offset + sz)) = so - p.offset + sz := by unfold u32 u64 sub64; omega
  rw [ep, eq, es]
  by_cases hh : so + sz > p.offset + p.filesz
  · rw [if_pos hh]
    have := mergeNext_spec hB rest lo { p with filesz := so - p.offset + sz } c1 (by dsimp only; omega) (by dsimp only; omega) (c4.mono (by dsimp only; omega))
    refine ⟨this.1, fun x => ?_⟩
    rw [this.2, cover_cons]
    dsimp only
    constructor
    · rintro (h | h)
      · by_cases hx : x < p.offset + p.filesz
        · exact .inr (.inl ⟨h.1, hx⟩)
        · exact .inl ⟨by omega, by omega⟩
      · exact .inr (.inr h)
    · rintro (h | h | h)
      · exact .inl ⟨by omega, by omega⟩
      · exact .inl ⟨h.1, by omega⟩
      · exact .inr h
  · rw [if_neg hh]
    have := mergeNext_spec hB rest lo p c1 c2 c3 (c4.mono (by omega))
    refine ⟨this.1, fun x => ?_⟩
    rw [this.2, cover_cons]
    constructor
    · exact .inr
    · rintro (h | h)
      · exact .inl ⟨by omega, by omega⟩
      · exact h

theorem insertAfter_spec {B : Nat} (hB : B < 4294967296) {so sz : Nat} (hz : 0 < sz) (he : so + sz ≤ B) : ∀ (rest : List Region) (lo : Nat) (p : Region),
    RChain B lo (p :: rest) → p.offset < so →
    RChain B lo (insertAfter so sz p rest) ∧ ∀ x, Cover (insertAfter so sz p rest) x ↔ (so ≤ x ∧ x < so + sz) ∨ Cover (p :: rest) x := by
  have ep : ∀ p : Region, p.offset + p.filesz ≤ B → u64 (p.offset + p.filesz) = p.offset + p.filesz := by intro p h; unfold u64; omega
  intro rest
  induction rest with
  | nil =>
    intro lo p hc hp
    rw [insertAfter]
    by_cases hg : u64 (p.offset + p.filesz) ≥ so
    · rw [if_pos hg]
      have := merge_prev hB hc hp hz he (by rw [ep p hc.2.2.1] at hg; exact hg)
      rw [mergeNext] at this
      exact this
    · rw [if_neg hg]
      rw [ep p hc.2.2.1] at hg
      refine ⟨⟨hc.1, hc.2.1, hc.2.2.1, by dsimp only; omega, hz, he, trivial⟩, fun x => ?_⟩
      rw [cover_cons, cover_cons, cover_cons]
      dsimp only
      constructor
      · rintro (h | h | h)
        · exact .inr (.inl h)
        · exact .inl h
        · exact absurd h cover_nil
      · rintro (h | h | h)
        · exact .inr (.inl h)
        · exact .inl h
        · exact absurd h cover_nil
  | cons q rest ih =>
    intro lo p hc hp
    rw [insertAfter]
    by_cases hq : q.offset < so
    · rw [if_pos hq]
      have := ih (p.offset + p.filesz + 1) q hc.2.2.2 hq
      refine ⟨⟨hc.1, hc.2.1, hc.2.2.1, this.1⟩, fun x => ?_⟩
      rw [cover_cons, this.2, cover_cons (r := p)]
      constructor
      · rintro (h | h | h)
        · exact .inr (.inl h)
        · exact .inl h
        · exact .inr (.inr h)
      · rintro (h | h | h)
        · exact .inr (.inl h)
        · exact .inl h
        · exact .inr (.inr h)
    · rw [if_neg hq]
      by_cases hg : u64 (p.offset + p.filesz) ≥ so
      · rw [if_pos hg]
        exact merge_prev hB hc hp hz he (by rw [ep p hc.2.2.1] at hg; exact hg)
      · rw [if_neg hg]
        rw [ep p hc.2.2.1] at hg
        have := mergeNext_spec hB (q :: rest) (p.offset + p.filesz + 1) ⟨so, sz⟩ (by dsimp only; omega) hz he ⟨by dsimp only; omega, hc.2.2.2.2⟩
        refine ⟨⟨hc.1, hc.2.1, hc.2.2.1, this.1⟩, fun x => ?_⟩
        rw [cover_cons, this.2, cover_cons (r := p)]
        dsimp only
        constructor
        · rintro (h | h | h)
          · exact .inr (.inl h)
          · exact .inl h
          · exact .inr (.inr h)
        · rintro (h | h | h)
          · exact .inr (.inl h)
          · exact .inl h
          · exact .inr (.inr h)

theorem insertRegion_spec {B : Nat} (hB : B < 4294967296) {so sz : Nat} (hz : 0 < sz) (he : so + sz ≤ B) {rs : List Region} (hc : RChain B 0 rs) :
    RChain B 0 (insertRegion rs so sz) ∧ ∀ x, Cover (insertRegion rs so sz) x ↔ (so ≤ x ∧ x < so + sz) ∨ Cover rs x := by
  unfold insertRegion
  cases rs with
  | nil => exact ⟨⟨Nat.zero_le _, hz, he, trivial⟩, fun x => by rw [cover_cons]⟩
  | cons q rest =>
    dsimp only
    by_cases hq : q.offset < so
    · rw [if_pos hq]
      exact insertAfter_spec hB hz he rest 0 q hc hq
    · rw [if_neg hq]
      have := mergeNext_spec hB (q :: rest) 0 ⟨so, sz⟩ (Nat.zero_le _) hz he ⟨by dsimp only; omega, hc.2⟩
      exact this

theorem foldl_regions {B : Nat} (hB : B < 4294967296) : ∀ (ps : List (Nat × Nat)) (rs : List Region), (∀ p ∈ ps, 0 < p.2 ∧ p.1 + p.2 ≤ B) → RChain B 0 rs →
    RChain B 0 (ps.foldl (fun rs p => insertRegion rs p.1 p.2) rs) ∧
    ∀ x, Cover (ps.foldl (fun rs p => insertRegion rs p.1 p.2) rs) x ↔ (∃ p ∈ ps, p.1 ≤ x ∧ x < p.1 + p.2) ∨ Cover rs x := by
  intro ps
  induction ps with
  | nil =>
    intro rs _ hc
    exact ⟨hc, fun x => by simp⟩
  | cons p ps ih =>
    intro rs hp hc
    have h1 := insertRegion_spec hB (hp p (by simp)).1 (hp p (by simp)).2 hc
    have h2 := ih (insertRegion rs p.1 p.2) (fun q hq => hp q (by simp [hq])) h1.1
    refine ⟨h2.1, fun x => ?_⟩
    rw [List.foldl_cons, h2.2, h1.2]
    simp only [List.mem_cons]
    constructor
    · rintro (⟨q, hq, h⟩ | h | h)
      · exact .inl ⟨q, .inr hq, h⟩
      · exact .inl ⟨p, .inl rfl, h⟩
      · exact .inr h
    · rintro (⟨q, rfl | hq, h⟩ | h)
      · exact .inr (.inl h)
      · exact .inl ⟨q, hq, h⟩
      · exact .inr (.inr h)

theorem RChain.mem {B : Nat} : ∀ {rs : List Region} {lo : Nat}, RChain B lo rs → ∀ r ∈ rs, lo ≤ r.offset ∧ 0 < r.filesz ∧ r.offset + r.filesz ≤ B
  | r :: rs, lo, h, x, hx => by
    rcases List.mem_cons.mp hx with e | e
    · rw [e]; exact ⟨h.1, h.2.1, h.2.2.1⟩
    · have := RChain.mem h.2.2.2 x e
      have := h.1
      exact ⟨by omega, by omega, by omega⟩

/-- Two regions are the same, or there is a gap between them. -/
theorem RChain.apart {B : Nat} : ∀ {rs : List Region} {lo : Nat}, RChain B lo rs → ∀ r ∈ rs, ∀ q ∈ rs, r = q ∨ r.offset + r.filesz < q.offset ∨ q.offset + q.filesz < r.offset
  | r :: rs, lo, h, x, hx, y, hy => by
    rcases List.mem_cons.mp hx with e | e
    · rcases List.mem_cons.mp hy with e' | e'
      · exact .inl (by rw [e, e'])
      · have := RChain.mem h.2.2.2 y e'
        rw [e]
        exact .inr (.inl (by omega))
    · rcases List.mem_cons.mp hy with e' | e'
      · have := RChain.mem h.2.2.2 x e
        rw [e']
        exact .inr (.inr (by omega))
      · exact RChain.apart h.2.2.2 x e y e'

/-- An interval that is covered lies in one region. -/
theorem RChain.interval {B lo : Nat} {rs : List Region} (h : RChain B lo rs) {a n : Nat} (hn : 0 < n) (hc : ∀ x, a ≤ x → x < a + n → Cover rs x) :
    ∃ r ∈ rs, r.offset ≤ a ∧ a + n ≤ r.offset + r.filesz := by
  obtain ⟨r, hr, h1, h2⟩ := hc a (Nat.le_refl _) (by omega)
  refine ⟨r, hr, h1, ?_⟩
  by_cases hh : a + n ≤ r.offset + r.filesz
  · exact hh
  · obtain ⟨q, hq, g1, g2⟩ := hc (r.offset + r.filesz) (by omega) (by omega)
    rcases h.apart r hr q hq with e | e | e
    · rw [← e] at g2; omega
    · omega
    · omega

/-! ### Displacements -/

/-- Regions with their places in the new file. -/
def PlChain (B : Nat) : Nat → Nat → List Placed → Prop
  | _, _, [] => True
  | lo, cur, p :: ps => lo ≤ p.offset ∧ 0 < p.filesz ∧ p.offset + p.filesz ≤ B ∧ p.offset = p.toffset + p.disp ∧ (∃ d, p.disp = 4096 * d) ∧
    cur ≤ p.toffset ∧ p.toffset < cur + 4096 ∧ PlChain B (p.offset + p.filesz + 1) (p.toffset + p.filesz) ps

def toRegion (p : Placed) : Region := ⟨p.offset, p.filesz⟩

theorem computeDisps_spec {B : Nat} (hB : B < 4294967296) : ∀ (rs : List Region) (lo cur : Nat), RChain B lo rs → cur ≤ lo →
    PlChain B lo cur (computeDisps cur rs) ∧ (computeDisps cur rs).map toRegion = rs := by
  intro rs
  induction rs with
  | nil => intro lo cur _ _; exact ⟨trivial, rfl⟩
  | cons r rs ih =>
    intro lo cur hc hl
    obtain ⟨c1, c2, c3, c4⟩ := hc
    have e1 : sub64 r.offset cur = r.offset - cur := by unfold sub64; omega
    have e2 : u32 (u64 ((r.offset - cur) / 4096 * 4096)) = (r.offset - cur) / 4096 * 4096 := by unfold u32 u64; omega
    have e3 : sub64 r.offset ((r.offset - cur) / 4096 * 4096) = r.offset - (r.offset - cur) / 4096 * 4096 := by unfold sub64; omega
    have e4 : u64 (r.offset - (r.offset - cur) / 4096 * 4096 + r.filesz) = r.offset - (r.offset - cur) / 4096 * 4096 + r.filesz := by unfold u64; omega
    rw [computeDisps]
    simp only [e1, e2, e3, e4]
    have := ih _ (r.offset - (r.offset - cur) / 4096 * 4096 + r.filesz) c4 (by omega)
    refine ⟨⟨c1, c2, c3, ?_, ⟨(r.offset - cur) / 4096, ?_⟩, ?_, ?_, this.1⟩, ?_⟩
    · dsimp only; omega
    · dsimp only; omega
    · dsimp only; omega
    · dsimp only; omega
    · rw [List.map_cons, this.2]; rfl


/-! ### Copying -/

theorem seekSet_eq {f : List Byte} {pos off : Nat} (h : off < 2147483648) : seekSet f pos off = .ok (some off) := by
  have e0 : (BitVec.ofNat 32 off).toInt = (off : Int) := by
    rw [BitVec.toInt_eq_toNat_cond, BitVec.toNat_ofNat, Nat.mod_eq_of_lt (by omega), if_pos (by omega)]
  have e := C81_lseek_partial (u := true) (f := ⟨pos, f.length⟩) (off := (off : Int)) (w := 0) (errno := 0) (.inl rfl) (by omega) (by
    show (0 : Int) + off ≤ 2147483647
    omega)
  unfold seekSet
  rw [e0, e, Res.ok_bind]
  dsimp only
  rw [if_neg (by show ¬ ((0 : Int) + off = -1); omega)]
  show Res.ok (some ((0 : Int) + off).toNat) = _
  congr 2
  omega

/-- The bytes of the file with the new headers in it. -/
def newByte (f eh ph : List Byte) (phoff phsz x : Nat) : Byte :=
  if phoff ≤ x ∧ x < phoff + phsz then byteAt ph (x - phoff) else if x < 64 then byteAt eh x else byteAt f x

theorem overlayBlock_spec {eh ph : List Byte} {phoff phsz thisoff : Nat} {buf : List Byte} (he : eh.length = 64) (hp : ph.length = phsz)
    (h64 : phoff + phsz < 18446744073709551616) :
    (overlayBlock eh ph phoff phsz thisoff buf).length = buf.length ∧
    ∀ k < buf.length, byteAt (overlayBlock eh ph phoff phsz thisoff buf) k =
      if phoff ≤ thisoff + k ∧ thisoff + k < phoff + phsz then byteAt ph (thisoff + k - phoff) else if thisoff + k < 64 then byteAt eh (thisoff + k) else byteAt buf k := by
  have eu : u64 (phoff + phsz) = phoff + phsz := by unfold u64; omega
  unfold overlayBlock
  dsimp only
  rw [eu]
  generalize hb1 : (if thisoff < 64 then patch buf 0 ((eh.drop thisoff).take (if 64 - thisoff > buf.length then buf.length else 64 - thisoff)) else buf) = buf1
  have hl : buf1.length = buf.length ∧ ∀ k < buf.length, byteAt buf1 k = if thisoff + k < 64 then byteAt eh (thisoff + k) else byteAt buf k := by
    rw [← hb1]
    by_cases h : thisoff < 64
    · rw [if_pos h]
      have hlen : ((eh.drop thisoff).take (if 64 - thisoff > buf.length then buf.length else 64 - thisoff)).length = min (64 - thisoff) buf.length := by
        rw [List.length_take, List.length_drop]
        split <;> omega
      refine ⟨patch_length (by omega), fun k hk => ?_⟩
      rw [byteAt_patch (by omega), hlen]
      by_cases h2 : thisoff + k < 64
      · rw [if_pos (by omega), if_pos h2, byteAt_take _ _ _ (by split <;> omega), byteAt_drop]
        rfl
      · rw [if_neg (by omega), if_neg h2]
    · rw [if_neg h]
      exact ⟨rfl, fun k hk => by rw [if_neg (by omega)]⟩
  by_cases h : thisoff < phoff + phsz ∧ phoff < thisoff + buf.length
  · rw [if_pos h]
    have hlen : ((ph.drop (if thisoff < phoff then 0 else thisoff - phoff)).take
        (if phsz - (if thisoff < phoff then 0 else thisoff - phoff) > buf.length - (if thisoff < phoff then phoff - thisoff else 0)
          then buf.length - (if thisoff < phoff then phoff - thisoff else 0) else phsz - (if thisoff < phoff then 0 else thisoff - phoff))).length =
        min (phsz - (if thisoff < phoff then 0 else thisoff - phoff)) (buf.length - (if thisoff < phoff then phoff - thisoff else 0)) := by
      rw [List.length_take, List.length_drop, hp]
      by_cases ht : thisoff < phoff
      · simp only [if_pos ht]; split <;> omega
      · simp only [if_neg ht]; split <;> omega
    constructor
    · rw [patch_length (by rw [hlen, hl.1]; split <;> omega), hl.1]
    · intro k hk
      rw [byteAt_patch (by rw [hlen, hl.1]; split <;> omega), hlen, hl.2 k hk]
      by_cases hin : phoff ≤ thisoff + k ∧ thisoff + k < phoff + phsz
      · rw [if_pos hin]
        by_cases ht : thisoff < phoff
        · simp only [if_pos ht]
          rw [if_pos (by omega), byteAt_take _ _ _ (by split <;> omega), byteAt_drop]
          congr 1
          omega
        · simp only [if_neg ht]
          rw [if_pos (by omega), byteAt_take _ _ _ (by split <;> omega), byteAt_drop]
          congr 1
          omega
      · rw [if_neg hin]
        rw [if_neg]
        by_cases ht : thisoff < phoff
        · simp only [if_pos ht]; omega
        · simp only [if_neg ht]; omega
  · rw [if_neg h]
    refine ⟨hl.1, fun k hk => ?_⟩
    rw [hl.2 k hk, if_neg (c := phoff ≤ _ ∧ _) (by omega)]

theorem copyLoop_spec {f eh ph : List Byte} {phoff phsz : Nat} (he : eh.length = 64) (hp : ph.length = phsz) (h64 : phoff + phsz < 18446744073709551616) :
    ∀ (n toread : Nat), toread ≤ n → ∀ (inpos : Nat) (out : List Byte) (outpos : Nat), inpos + toread ≤ f.length →
    ∃ out', copyLoop f eh ph phoff phsz inpos out outpos inpos toread = some out' ∧
      out'.length = (if toread = 0 then out.length else max out.length (outpos + toread)) ∧
      ∀ x, byteAt out' x = if outpos ≤ x ∧ x < outpos + toread then newByte f eh ph phoff phsz (inpos + (x - outpos)) else byteAt out x := by
  intro n
  induction n with
  | zero =>
    intro toread hn inpos out outpos _
    have : toread = 0 := by omega
    subst this
    refine ⟨out, by rw [copyLoop, if_neg (by omega)], by rw [if_pos rfl], fun x => by rw [if_neg (by omega)]⟩
  | succ n ih =>
    intro toread hn inpos out outpos hf
    by_cases h0 : toread = 0
    · subst h0
      refine ⟨out, by rw [copyLoop, if_neg (by omega)], by rw [if_pos rfl], fun x => by rw [if_neg (by omega)]⟩
    · rw [copyLoop, if_pos (by omega)]
      dsimp only
      generalize ht : (if toread > 8192 then 8192 else toread) = t
      have ht1 : 0 < t ∧ t ≤ toread := by rw [← ht]; split <;> omega
      have hlen : (readAt f inpos t).length = t := by
        unfold readAt
        rw [List.length_take, List.length_drop]
        omega
      rw [if_neg (by omega)]
      have hov := overlayBlock_spec (thisoff := inpos) (buf := readAt f inpos t) he hp h64
      rw [hlen] at hov
      obtain ⟨out', e, hl, hx⟩ := ih (toread - t) (by omega) (inpos + t) (writeAt out outpos (overlayBlock eh ph phoff phsz inpos (readAt f inpos t))) (outpos + t) (by omega)
      refine ⟨out', e, ?_, fun x => ?_⟩
      · rcases writeAt_length out outpos (overlayBlock eh ph phoff phsz inpos (readAt f inpos t)) with h | h
        · rw [hl, h, hov.1, if_neg h0]
          split <;> omega
        · rw [h] at hov
          simp at hov
          omega
      · rw [hx, byteAt_writeAt, hov.1]
        by_cases h1 : outpos + t ≤ x ∧ x < outpos + t + (toread - t)
        · rw [if_pos h1, if_pos (by omega)]
          congr 1
          omega
        · rw [if_neg h1]
          by_cases h2 : outpos ≤ x ∧ x < outpos + t
          · rw [if_pos h2, if_pos (by omega), hov.2 _ (by omega)]
            unfold newByte
            have : byteAt (readAt f inpos t) (x - outpos) = byteAt f (inpos + (x - outpos)) := by
              unfold readAt
              rw [byteAt_take _ _ _ (by omega), byteAt_drop]
            rw [this]
          · rw [if_neg h2, if_neg (by omega)]

/-- All places of a region in the new file. -/
def In (p : Placed) (x : Nat) : Prop := p.toffset ≤ x ∧ x < p.toffset + p.filesz

theorem PlChain.mem {B : Nat} : ∀ {ps : List Placed} {lo cur : Nat}, PlChain B lo cur ps → ∀ p ∈ ps, lo ≤ p.offset ∧ 0 < p.filesz ∧ p.offset + p.filesz ≤ B ∧
    p.offset = p.toffset + p.disp ∧ (∃ d, p.disp = 4096 * d) ∧ cur ≤ p.toffset
  | q :: ps, lo, cur, h, p, hp => by
    obtain ⟨h1, h2, h3, h4, h5, h6, h7, h8⟩ := h
    rcases List.mem_cons.mp hp with e | e
    · rw [e]; exact ⟨h1, h2, h3, h4, h5, h6⟩
    · have := PlChain.mem h8 p e
      exact ⟨by omega, this.2.1, this.2.2.1, this.2.2.2.1, this.2.2.2.2.1, by omega⟩

/-- Places in the new file do not overlap. -/
theorem PlChain.unique {B : Nat} : ∀ {ps : List Placed} {lo cur : Nat}, PlChain B lo cur ps → ∀ p ∈ ps, ∀ q ∈ ps, ∀ x, In p x → In q x → p = q
  | r :: ps, lo, cur, h, p, hp, q, hq, x, h1, h2 => by
    obtain ⟨_, _, _, _, _, _, _, h8⟩ := h
    unfold In at h1 h2
    rcases List.mem_cons.mp hp with e | e
    · rcases List.mem_cons.mp hq with e' | e'
      · rw [e, e']
      · have := (PlChain.mem h8 q e').2.2.2.2.2
        rw [e] at h1
        omega
    · rcases List.mem_cons.mp hq with e' | e'
      · have := (PlChain.mem h8 p e).2.2.2.2.2
        rw [e'] at h2
        omega
      · exact PlChain.unique h8 p e q e' x h1 h2

theorem processFile_spec {f eh ph : List Byte} {phoff phsz : Nat} (he : eh.length = 64) (hp : ph.length = phsz) (h64 : phoff + phsz < 18446744073709551616)
    (hf : f.length < 2147483648) : ∀ (ps : List Placed) (lo cur : Nat) (out : List Byte), PlChain f.length lo cur ps → out.length ≤ cur → cur ≤ f.length →
    ∃ out', processFile f eh ph phoff phsz out ps = .ok (some out') ∧ out'.length ≤ f.length ∧ out.length ≤ out'.length ∧
      (∀ p ∈ ps, p.toffset + p.filesz ≤ out'.length) ∧
      (∀ p ∈ ps, ∀ x, In p x → byteAt out' x = newByte f eh ph phoff phsz (p.disp + x)) ∧
      ∀ x, (∀ p ∈ ps, ¬ In p x) → byteAt out' x = byteAt out x := by
  intro ps
  induction ps with
  | nil => 
    intro lo cur out _ h1 h2
    exact ⟨out, rfl, by omega, by omega, by simp, by simp, fun _ _ => rfl⟩
  | cons p ps ih =>
    intro lo cur out hc h1 h2
    obtain ⟨c1, c2, c3, c4, c5, c6, c7, c8⟩ := hc
    obtain ⟨o1, e1, hl, hx⟩ := copyLoop_spec (f := f) (eh := eh) (ph := ph) (phoff := phoff) (phsz := phsz) he hp h64 p.filesz p.filesz (Nat.le_refl _) p.offset out p.toffset c3
    rw [if_neg (by omega)] at hl
    obtain ⟨out', e2, g1, g2, g3, g4, g5⟩ := ih _ _ o1 c8 (by omega) (by omega)
    have hrest : ∀ x, x < p.toffset + p.filesz → ∀ q ∈ ps, ¬ In q x := by
      intro x hx q hq hin
      have := (PlChain.mem c8 q hq).2.2.2.2.2
      unfold In at hin
      omega
    refine ⟨out', ?_, g1, by omega, ?_, ?_, ?_⟩
    · rw [processFile, seekSet_eq (by omega)]
      simp only [Res.ok_bind]
      rw [seekSet_eq (by omega)]
      simp only [Res.ok_bind]
      rw [e1]
      exact e2
    · intro q hq
      rcases List.mem_cons.mp hq with e | e
      · rw [e]; omega
      · exact g3 q e
    · intro q hq x hin
      rcases List.mem_cons.mp hq with e | e
      · rw [e] at hin ⊢
        unfold In at hin
        rw [g5 x (hrest x hin.2), hx, if_pos hin]
        congr 1
        have := hin.1
        omega
      · exact g4 q e x hin
    · intro x hno
      rw [g5 x (fun q hq => hno q (by simp [hq])), hx, if_neg (show ¬ (p.toffset ≤ x ∧ x < p.toffset + p.filesz) from hno p (by simp))]


theorem PlChain.uniqueIn {B : Nat} : ∀ {ps : List Placed} {lo cur : Nat}, PlChain B lo cur ps → ∀ p ∈ ps, ∀ q ∈ ps, ∀ x,
    p.offset ≤ x → x < p.offset + p.filesz → q.offset ≤ x → x < q.offset + q.filesz → p = q
  | r :: ps, lo, cur, h, p, hp, q, hq, x, h1, h2, h3, h4 => by
    obtain ⟨_, _, _, _, _, _, _, h8⟩ := h
    rcases List.mem_cons.mp hp with e | e
    · rcases List.mem_cons.mp hq with e' | e'
      · rw [e, e']
      · have := (PlChain.mem h8 q e').1
        rw [e] at h1 h2
        omega
    · rcases List.mem_cons.mp hq with e' | e'
      · have := (PlChain.mem h8 p e).1
        rw [e'] at h3 h4
        omega
      · exact PlChain.uniqueIn h8 p e q e' x h1 h2 h3 h4

/-! ### Headers -/

theorem num_take (l : List Byte) (m : Nat) : ∀ n a, a + n ≤ m → num (l.take m) a n = num l a n := by
  intro n a h
  exact num_congr n a a (fun k hk => byteAt_take _ _ _ (by omega))

theorem entries_length : ∀ (n : Nat) (b : List Byte), (entries n b).length = n := by
  intro n
  induction n with
  | zero => intro b; rfl
  | succ n ih => intro b; simp [entries, ih]

theorem entries_get : ∀ (n : Nat) (b : List Byte) (i : Nat) (h : i < (entries n b).length), (entries n b)[i] = (b.drop (56 * i)).take 56 := by
  intro n
  induction n with
  | zero => intro b i h; simp [entries] at h
  | succ n ih =>
    intro b i h
    cases i with
    | zero => simp [entries]
    | succ i =>
      simp only [entries, List.getElem_cons_succ]
      rw [ih, List.drop_drop]
      congr 2
      omega

theorem byteAt_flatten : ∀ (es : List (List Byte)), (∀ e ∈ es, e.length = 56) → ∀ (i : Nat) (h : i < es.length) (x : Nat), x < 56 →
    byteAt es.flatten (56 * i + x) = byteAt es[i] x := by
  intro es
  induction es with
  | nil => intro _ i h; simp at h
  | cons e es ih =>
    intro hl i h x hx
    rw [List.flatten_cons, byteAt_append, hl e (by simp)]
    cases i with
    | zero =>
      rw [if_pos (by omega)]
      simp
    | succ i =>
      rw [if_neg (by omega), List.getElem_cons_succ, ← ih (fun e he => hl e (by simp [he])) i (by simpa using h) x hx]
      congr 1
      omega

theorem flatten_length56 : ∀ (es : List (List Byte)), (∀ e ∈ es, e.length = 56) → es.flatten.length = 56 * es.length := by
  intro es
  induction es with
  | nil => intro _; rfl
  | cons e es ih =>
    intro hl
    rw [List.flatten_cons, List.length_append, hl e (by simp), ih (fun e he => hl e (by simp [he])), List.length_cons]
    omega

theorem setField_length {s : List Byte} {off n v : Nat} (h : off + n ≤ s.length) : (setField s off n v).length = s.length := by
  unfold setField
  exact patch_length (by rw [leBytes_length]; exact h)

theorem byteAt_setField {s : List Byte} {off n v : Nat} (h : off + n ≤ s.length) (x : Nat) :
    byteAt (setField s off n v) x = if off ≤ x ∧ x < off + n then byteAt (leBytes n v) (x - off) else byteAt s x := by
  unfold setField
  rw [byteAt_patch (by rw [leBytes_length]; exact h), leBytes_length]

/-- A program header with its new offset. -/
def moved (rs : List Placed) (e : List Byte) : List Byte :=
  if field e 0 4 = 0 ∨ field e 32 8 = 0 then e
  else match findRegion rs (field e 8 8) (field e 32 8) with
    | none => e
    | some p => setField e 8 8 (sub64 (field e 8 8) p.disp)

theorem modifyPhs_eq {rs : List Placed} : ∀ (es : List (List Byte)), (∀ e ∈ es, field e 0 4 ≠ 0 → field e 32 8 ≠ 0 → ∃ p, findRegion rs (field e 8 8) (field e 32 8) = some p) →
    modifyPhs rs es = some (es.map (moved rs)) := by
  intro es
  induction es with
  | nil => intro _; rfl
  | cons e es ih =>
    intro h
    rw [modifyPhs, ih (fun x hx => h x (by simp [hx]))]
    unfold moved
    by_cases h0 : field e 0 4 = 0 ∨ field e 32 8 = 0
    · rw [if_pos h0]
      simp [if_pos h0, moved]
    · rw [if_neg h0]
      obtain ⟨p, hp⟩ := h e (by simp) (fun h => h0 (.inl h)) (fun h => h0 (.inr h))
      rw [hp, List.map_cons, if_neg h0, hp]
      rfl

theorem findRegion_some {B : Nat} (hB : B < 4294967296) {ps : List Placed} {lo cur : Nat} (hc : PlChain B lo cur ps) {off size : Nat} (hs : off + size ≤ B)
    (h : ∃ p ∈ ps, p.offset ≤ off ∧ off + size ≤ p.offset + p.filesz) :
    ∃ p ∈ ps, findRegion ps off size = some p ∧ p.offset ≤ off ∧ off + size ≤ p.offset + p.filesz := by
  have hpred : ∀ p ∈ ps, (decide (off ≥ p.offset) && decide (u64 (off + size) ≤ u64 (p.offset + p.filesz))) = true ↔ p.offset ≤ off ∧ off + size ≤ p.offset + p.filesz := by
    intro p hp
    have := (hc.mem p hp).2.2.1
    have e1 : u64 (p.offset + p.filesz) = p.offset + p.filesz := by unfold u64; omega
    have e2 : u64 (off + size) = off + size := by unfold u64; omega
    rw [e1, e2]
    simp
  obtain ⟨p, hp, h1⟩ := h
  unfold findRegion
  cases hf : ps.find? (fun p => decide (off ≥ p.offset) && decide (u64 (off + size) ≤ u64 (p.offset + p.filesz))) with
  | none =>
    rw [List.find?_eq_none] at hf
    exact absurd ((hpred p hp).2 h1) (hf p hp)
  | some q =>
    have hm := List.mem_of_find?_eq_some hf
    have := List.find?_some hf
    exact ⟨q, hm, rfl, (hpred q hm).1 this⟩

end Minilib

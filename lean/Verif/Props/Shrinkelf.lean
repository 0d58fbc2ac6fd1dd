import Verif.Lemmas.Shrinkelf
import Verif.Props.Str
/-
C90: shrinkelf keeps the program and drops everything else.
-/

set_option autoImplicit false

namespace Minilib
open Mem Spec

/-- The ELF header and the program headers, as `read_hdrs` gets them. -/
theorem readHdrs_eq {f : List Byte} (hx : Executable f) (hf : phOff f < 2147483648) :
    readHdrs f = .ok (some (f.take 64, entries (phNum f) ((f.drop (phOff f)).take (56 * phNum f)))) := by
  have hlen : (readAt f 0 64).length = 64 := by unfold readAt; rw [List.length_take, List.length_drop]; have := hx.long; omega
  have ht : readAt f 0 64 = f.take 64 := rfl
  have fe : ∀ a n, a + n ≤ 64 → field (f.take 64) a n = num f a n := fun a n h => by rw [field_num, num_take _ _ _ _ h]
  have h1 := hx.table
  have h2 := hx.behind
  have h3 := hx.nonempty
  have e1 : num f 32 8 = phOff f := rfl
  have e2 : num f 56 2 = phNum f := rfl
  unfold readHdrs
  rw [ht] at hlen ⊢
  dsimp only
  rw [if_neg (by omega), fe 4 1 (by omega), if_neg (by rw [hx.class64]; omega), fe 6 1 (by omega), if_neg (by rw [hx.version]; omega),
    fe 16 2 (by omega), if_neg (by rw [hx.exec]; omega), fe 20 4 (by omega), if_neg (by rw [hx.version2]; omega), fe 32 8 (by omega), e1,
    if_neg (by omega), fe 54 2 (by omega), if_neg (by rw [hx.entsize]; omega), fe 56 2 (by omega), e2, if_neg h3, seekSet_eq (by omega), Res.ok_bind]
  dsimp only
  have hb : (readAt f (phOff f) (phNum f * 56)).length = phNum f * 56 := by
    unfold readAt
    rw [List.length_take, List.length_drop]
    omega
  rw [if_neg (by omega)]
  unfold readAt
  rw [Nat.mul_comm (phNum f) 56]
  rfl

/-- The program header `i` of the file. -/
theorem entry_field {f : List Byte} (i a n : Nat) (h : i < (entries (phNum f) ((f.drop (phOff f)).take (56 * phNum f))).length) (ha : a + n ≤ 56) :
    field (entries (phNum f) ((f.drop (phOff f)).take (56 * phNum f)))[i] a n = num f (phAt f i + a) n := by
  rw [field_num, entries_get]
  rw [entries_length] at h
  rw [num_take _ _ _ _ ha, num_drop, num_take _ _ _ _ (by omega), num_drop]
  unfold phAt
  congr 1
  omega

theorem entry_byte {f : List Byte} (i x : Nat) (h : i < (entries (phNum f) ((f.drop (phOff f)).take (56 * phNum f))).length) (hx : x < 56) :
    byteAt (entries (phNum f) ((f.drop (phOff f)).take (56 * phNum f)))[i] x = byteAt f (phAt f i + x) := by
  rw [entries_get]
  rw [entries_length] at h
  rw [byteAt_take _ _ _ hx, byteAt_drop, byteAt_take _ _ _ (by omega), byteAt_drop]
  unfold phAt
  congr 1
  omega

/-- The regions cover exactly the headers and the segments. -/
theorem regions_spec {f : List Byte} (hx : Executable f) (hf : f.length < 2147483648) :
    RChain f.length 0 (computeRegions (f.take 64) (entries (phNum f) ((f.drop (phOff f)).take (56 * phNum f)))) ∧
    ∀ x, Cover (computeRegions (f.take 64) (entries (phNum f) ((f.drop (phOff f)).take (56 * phNum f)))) x ↔
      InHeaders f x ∨ ∃ i, Loads f i ∧ segOff f i ≤ x ∧ x < segOff f i + segSize f i := by
  generalize hes : entries (phNum f) ((f.drop (phOff f)).take (56 * phNum f)) = es
  have fe : ∀ a n, a + n ≤ 64 → field (f.take 64) a n = num f a n := fun a n h => by rw [field_num, num_take _ _ _ _ h]
  have hn : phNum f < 65536 := num_lt f 2 56
  have esz : u32 (field (f.take 64) 54 2 * field (f.take 64) 56 2) = 56 * phNum f := by
    rw [fe 54 2 (by omega), fe 56 2 (by omega), hx.entsize]
    show u32 (56 * phNum f) = _
    unfold u32
    omega
  have eoff : field (f.take 64) 32 8 = phOff f := fe 32 8 (by omega)
  have hlen : es.length = phNum f := by rw [← hes, entries_length]
  have hfi : ∀ (i a n : Nat) (h : i < es.length), a + n ≤ 56 → field es[i] a n = num f (phAt f i + a) n := by
    subst hes
    exact fun i a n h ha => entry_field i a n h ha
  have hld : ∀ (i : Nat) (h : i < es.length), field es[i] 0 4 ≠ 0 → field es[i] 32 8 ≠ 0 → Loads f i := by
    intro i h h1 h2
    rw [hfi i _ _ h (by omega)] at h1 h2
    rw [Nat.add_zero] at h1
    exact ⟨by omega, h1, h2⟩
  have hseg : ∀ i, Loads f i → segOff f i + segSize f i ≤ f.length := hx.segments
  have hu : ∀ (i : Nat) (h : i < es.length), field es[i] 0 4 ≠ 0 → field es[i] 32 8 ≠ 0 → u32 (field es[i] 32 8) = segSize f i ∧ field es[i] 8 8 = segOff f i := by
    intro i h h1 h2
    have := hseg i (hld i h h1 h2)
    rw [hfi i 32 8 h (by omega), hfi i 8 8 h (by omega)]
    refine ⟨?_, rfl⟩
    show u32 (segSize f i) = _
    unfold u32
    omega
  have hb : f.length < 4294967296 := by omega
  have hmem : ∀ p, p ∈ (parts (f.take 64) es).filter (fun p => p.2 ≠ 0) ↔
      p = (0, 64) ∨ p = (phOff f, 56 * phNum f) ∨ (p.2 ≠ 0 ∧ ∃ i, ∃ h : i < es.length, field es[i] 0 4 ≠ 0 ∧ p = (field es[i] 8 8, u32 (field es[i] 32 8))) := by
    intro p
    unfold parts
    rw [esz, eoff]
    simp only [List.mem_filter, List.mem_cons, List.mem_map, decide_eq_true_eq]
    have hnz := hx.nonempty
    constructor
    · rintro ⟨h1 | h1 | ⟨e, ⟨he, h2⟩, h3⟩, h0⟩
      · exact .inl h1
      · exact .inr (.inl h1)
      · obtain ⟨i, hi, rfl⟩ := List.mem_iff_getElem.mp he
        exact .inr (.inr ⟨h0, i, hi, h2, h3.symm⟩)
    · rintro (h1 | h1 | ⟨h0, i, hi, h2, h3⟩)
      · exact ⟨.inl h1, by rw [h1]; simp⟩
      · exact ⟨.inr (.inl h1), by rw [h1]; simp only; omega⟩
      · exact ⟨.inr (.inr ⟨es[i], ⟨List.getElem_mem hi, h2⟩, h3.symm⟩), h0⟩
  have hnz32 : ∀ (i : Nat) (h : i < es.length), u32 (field es[i] 32 8) ≠ 0 → field es[i] 32 8 ≠ 0 := by
    intro i h h1 h2
    rw [h2] at h1
    exact h1 rfl
  have hsp := foldl_regions hb ((parts (f.take 64) es).filter (fun p => p.2 ≠ 0)) [] (fun p hp => by
    have h1 := hx.table
    have h2 := hx.long
    have h3 := hx.nonempty
    rcases (hmem p).1 hp with e | e | ⟨h0, i, hi, g1, g2⟩
    · rw [e]; exact ⟨by simp, by simpa using h2⟩
    · rw [e]; exact ⟨by simp only; omega, h1⟩
    · rw [g2] at h0 ⊢
      have h4 := hnz32 i hi h0
      obtain ⟨u1, u2⟩ := hu i hi g1 h4
      have := hseg i (hld i hi g1 h4)
      dsimp only
      rw [u1, u2]
      dsimp only at h0
      rw [u1] at h0
      exact ⟨by omega, this⟩) trivial
  refine ⟨hsp.1, fun x => ?_⟩
  show Cover (((parts (f.take 64) es).filter (fun p => p.2 ≠ 0)).foldl (fun rs p => insertRegion rs p.1 p.2) []) x ↔ _
  rw [hsp.2]
  constructor
  · rintro (⟨p, hp, h1, h2⟩ | h)
    · rcases (hmem p).1 hp with e | e | ⟨h0, i, hi, g1, g2⟩
      · rw [e] at h1 h2; exact .inl (.inl (by simpa using h2))
      · rw [e] at h1 h2; exact .inl (.inr ⟨h1, h2⟩)
      · rw [g2] at h0 h1 h2
        have h4 := hnz32 i hi h0
        obtain ⟨u1, u2⟩ := hu i hi g1 h4
        dsimp only at h1 h2
        rw [u2] at h1
        rw [u1, u2] at h2
        exact .inr ⟨i, hld i hi g1 h4, h1, h2⟩
    · exact absurd h cover_nil
  · rintro ((h | h) | ⟨i, hl, h1, h2⟩)
    · exact .inl ⟨(0, 64), (hmem _).2 (.inl rfl), Nat.zero_le _, by simpa using h⟩
    · exact .inl ⟨(phOff f, 56 * phNum f), (hmem _).2 (.inr (.inl rfl)), h.1, h.2⟩
    · have hi : i < es.length := by have := hl.1; omega
      have g1 : field es[i] 0 4 ≠ 0 := by rw [hfi i 0 4 hi (by omega), Nat.add_zero]; exact hl.2.1
      have g2 : field es[i] 32 8 ≠ 0 := by rw [hfi i 32 8 hi (by omega)]; exact hl.2.2
      obtain ⟨u1, u2⟩ := hu i hi g1 g2
      refine .inl ⟨(field es[i] 8 8, u32 (field es[i] 32 8)), (hmem _).2 (.inr (.inr ⟨?_, i, hi, g1, rfl⟩)), ?_, ?_⟩
      · dsimp only; rw [u1]; exact hl.2.2
      · dsimp only; rw [u2]; exact h1
      · dsimp only; rw [u1, u2]; exact h2


attribute [local irreducible] num

set_option maxHeartbeats 1000000 in
/-- The plan: the places of all regions, the region of the table, and the new headers. -/
theorem plan_spec {f : List Byte} (hx : Executable f) (hf : f.length < 2147483648) :
    ∃ (ps : List Placed) (p0 pT : Placed) (eh' : List Byte) (es' : List (List Byte)),
      computeDisps 0 (computeRegions (f.take 64) (entries (phNum f) ((f.drop (phOff f)).take (56 * phNum f)))) = ps ∧
      PlChain f.length 0 0 ps ∧
      (∀ x, (∃ p ∈ ps, p.offset ≤ x ∧ x < p.offset + p.filesz) ↔ InHeaders f x ∨ ∃ i, Loads f i ∧ segOff f i ≤ x ∧ x < segOff f i + segSize f i) ∧
      (p0 ∈ ps ∧ p0.offset = 0 ∧ p0.disp = 0 ∧ p0.toffset = 0 ∧ 64 ≤ p0.filesz) ∧
      (pT ∈ ps ∧ pT.offset ≤ phOff f ∧ phOff f + 56 * phNum f ≤ pT.offset + pT.filesz) ∧
      modifyHdrs ps (f.take 64) (entries (phNum f) ((f.drop (phOff f)).take (56 * phNum f))) = some (eh', es') ∧
      eh'.length = 64 ∧ num eh' 32 8 = phOff f - pT.disp ∧
      (∀ x, (x < 32 ∨ (48 ≤ x ∧ x < 58)) → byteAt eh' x = byteAt f x) ∧
      (∀ x, ((40 ≤ x ∧ x < 48) ∨ (58 ≤ x ∧ x < 64)) → byteAt eh' x = 0#8) ∧
      es'.length = phNum f ∧ (∀ e ∈ es', e.length = 56) ∧
      (∀ (i : Nat) (h : i < es'.length) (x : Nat), (x < 8 ∨ (16 ≤ x ∧ x < 56)) → byteAt es'[i] x = byteAt f (phAt f i + x)) ∧
      (∀ (i : Nat) (h : i < es'.length), Loads f i → ∃ p ∈ ps, p.offset ≤ segOff f i ∧ segOff f i + segSize f i ≤ p.offset + p.filesz ∧ num es'[i] 8 8 = segOff f i - p.disp) := by
  obtain ⟨hch, hcov⟩ := regions_spec hx hf
  have hb : f.length < 4294967296 := by omega
  obtain ⟨hpc, hmap⟩ := computeDisps_spec hb _ 0 0 hch (Nat.le_refl _)
  have hint : ∀ a n, 0 < n → a + n ≤ f.length → (∀ x, a ≤ x → x < a + n → InHeaders f x ∨ ∃ i, Loads f i ∧ segOff f i ≤ x ∧ x < segOff f i + segSize f i) →
      ∃ p ∈ computeDisps 0 (computeRegions (f.take 64) (entries (phNum f) ((f.drop (phOff f)).take (56 * phNum f)))), p.offset ≤ a ∧ a + n ≤ p.offset + p.filesz := by
    intro a n hn _ h
    obtain ⟨r, hr, h1, h2⟩ := hch.interval hn (fun x h1 h2 => (hcov x).2 (h x h1 h2))
    rw [← hmap] at hr
    obtain ⟨p, hp, rfl⟩ := List.mem_map.mp hr
    exact ⟨p, hp, h1, h2⟩
  have hcov' : ∀ x, (∃ p ∈ computeDisps 0 (computeRegions (f.take 64) (entries (phNum f) ((f.drop (phOff f)).take (56 * phNum f)))), p.offset ≤ x ∧ x < p.offset + p.filesz) ↔
      InHeaders f x ∨ ∃ i, Loads f i ∧ segOff f i ≤ x ∧ x < segOff f i + segSize f i := by
    intro x
    rw [← hcov x]
    unfold Cover
    conv => rhs; rw [← hmap]
    constructor
    · rintro ⟨p, hp, h⟩
      exact ⟨toRegion p, List.mem_map.mpr ⟨p, hp, rfl⟩, h⟩
    · rintro ⟨r, hr, h⟩
      obtain ⟨p, hp, rfl⟩ := List.mem_map.mp hr
      exact ⟨p, hp, h⟩
  generalize hps : computeDisps 0 (computeRegions (f.take 64) (entries (phNum f) ((f.drop (phOff f)).take (56 * phNum f)))) = ps at *
  have fe : ∀ a n, a + n ≤ 64 → field (f.take 64) a n = num f a n := fun a n h => by rw [field_num, num_take _ _ _ _ h]
  have hn : phNum f < 65536 := num_lt f 2 56
  have esz : u32 (field (f.take 64) 54 2 * field (f.take 64) 56 2) = 56 * phNum f := by
    rw [fe 54 2 (by omega), fe 56 2 (by omega), hx.entsize]
    show u32 (56 * phNum f) = _
    unfold u32
    omega
  have eoff : field (f.take 64) 32 8 = phOff f := fe 32 8 (by omega)
  have htab := hx.table
  have hnz := hx.nonempty
  have hlong := hx.long
  -- the first region
  obtain ⟨p0, hp0, a1, a2⟩ := hint 0 64 (by omega) (by omega) (fun x _ h => .inl (.inl (by omega)))
  have a3 := hpc.mem p0 hp0
  -- the region of the table
  obtain ⟨pT, hpT, hfT, b1, b2⟩ := findRegion_some hb hpc htab (hint (phOff f) (56 * phNum f) (by omega) htab (fun x h1 h2 => .inl (.inr ⟨h1, h2⟩)))
  -- the segments
  have hent : ∀ (i : Nat) (h : i < (entries (phNum f) ((f.drop (phOff f)).take (56 * phNum f))).length),
      (entries (phNum f) ((f.drop (phOff f)).take (56 * phNum f)))[i].length = 56 := by
    intro i h
    rw [entries_get, List.length_take, List.length_drop, List.length_take, List.length_drop]
    rw [entries_length] at h
    omega
  have hfi := fun i a n h ha => entry_field (f := f) i a n h ha
  have hby := fun i x h hx => entry_byte (f := f) i x h hx
  have hel : (entries (phNum f) ((f.drop (phOff f)).take (56 * phNum f))).length = phNum f := entries_length _ _
  generalize entries (phNum f) ((f.drop (phOff f)).take (56 * phNum f)) = es at *
  have hld : ∀ (i : Nat) (h : i < es.length), Loads f i ↔ field es[i] 0 4 ≠ 0 ∧ field es[i] 32 8 ≠ 0 := by
    intro i h
    rw [hfi i 0 4 h (by omega), hfi i 32 8 h (by omega), Nat.add_zero]
    exact ⟨fun h => h.2, fun g => ⟨by omega, g⟩⟩
  have hfind : ∀ (i : Nat) (h : i < es.length), Loads f i →
      ∃ p ∈ ps, findRegion ps (field es[i] 8 8) (field es[i] 32 8) = some p ∧ p.offset ≤ segOff f i ∧ segOff f i + segSize f i ≤ p.offset + p.filesz := by
    intro i h hl
    rw [hfi i 8 8 h (by omega), hfi i 32 8 h (by omega)]
    have hs := hx.segments i hl
    have hz : 0 < segSize f i := Nat.pos_of_ne_zero hl.2.2
    exact findRegion_some hb hpc hs (hint (segOff f i) (segSize f i) hz hs (fun x h1 h2 => .inr ⟨i, hl, h1, h2⟩))
  have hmod := modifyPhs_eq (rs := ps) es (fun e he h1 h2 => by
    obtain ⟨i, hi, rfl⟩ := List.mem_iff_getElem.mp he
    obtain ⟨p, _, h, _⟩ := hfind i hi ((hld i hi).2 ⟨h1, h2⟩)
    exact ⟨p, h⟩)
  have htl : (f.take 64).length = 64 := by rw [List.length_take]; omega
  have l1 : (setField (f.take 64) 40 8 0).length = 64 := by rw [setField_length (by omega), htl]
  have l2 : (setField (setField (f.take 64) 40 8 0) 58 2 0).length = 64 := by rw [setField_length (by omega), l1]
  have l3 : (setField (setField (setField (f.take 64) 40 8 0) 58 2 0) 60 2 0).length = 64 := by rw [setField_length (by omega), l2]
  have l4 : (setField (setField (setField (setField (f.take 64) 40 8 0) 58 2 0) 60 2 0) 62 2 0).length = 64 := by rw [setField_length (by omega), l3]
  have dT := hpc.mem pT hpT
  have hsubT : sub64 (phOff f) pT.disp = phOff f - pT.disp := by unfold sub64; omega
  have hzero : ∀ n k, byteAt (leBytes n 0) k = 0#8 := by
    intro n
    induction n with
    | zero => intro k; rfl
    | succ n ih =>
      intro k
      cases k with
      | zero => rfl
      | succ k => exact ih k
  refine ⟨ps, p0, pT, setField (setField (setField (setField (setField (f.take 64) 40 8 0) 58 2 0) 60 2 0) 62 2 0) 32 8 (phOff f - pT.disp), es.map (moved ps),
    rfl, hpc, hcov', ⟨hp0, by omega, by omega, by omega, by omega⟩, ⟨hpT, b1, b2⟩, ?_, ?_, ?_, ?_, ?_, ?_, ?_, ?_, ?_⟩
  · unfold modifyHdrs
    dsimp only
    rw [eoff, esz, hfT]
    dsimp only
    rw [hmod, hsubT]
    rfl
  · rw [setField_length (by omega), l4]
  · apply num_leBytes
    · intro k hk
      rw [byteAt_setField (by omega), if_pos (by omega)]
      congr 1
      omega
    · have := num_lt f 8 32
      show phOff f - pT.disp < 256 ^ 8
      have : phOff f < 256 ^ 8 := this
      omega
  · intro x hh
    rw [byteAt_setField (by omega), if_neg (by omega), byteAt_setField (by omega), if_neg (by omega), byteAt_setField (by omega), if_neg (by omega),
      byteAt_setField (by omega), if_neg (by omega), byteAt_setField (by omega), if_neg (by omega), byteAt_take _ _ _ (by omega)]
  · intro x hh
    rw [byteAt_setField (by omega), if_neg (by omega), byteAt_setField (by omega)]
    split
    · exact hzero _ _
    · rw [byteAt_setField (by omega)]
      split
      · exact hzero _ _
      · rw [byteAt_setField (by omega)]
        split
        · exact hzero _ _
        · rw [byteAt_setField (by omega)]
          split
          · exact hzero _ _
          · omega
  · rw [List.length_map, hel]
  · intro e he
    obtain ⟨e0, he0, rfl⟩ := List.mem_map.mp he
    obtain ⟨i, hi, rfl⟩ := List.mem_iff_getElem.mp he0
    unfold moved
    split
    · exact hent i hi
    · split
      · exact hent i hi
      · rw [setField_length (by rw [hent i hi]; omega), hent i hi]
  · intro i h x hh
    rw [List.length_map] at h
    rw [List.getElem_map]
    unfold moved
    split
    · exact hby i x h (by omega)
    · split
      · exact hby i x h (by omega)
      · rw [byteAt_setField (by rw [hent i h]; omega), if_neg (by omega)]
        exact hby i x h (by omega)
  · intro i h hl
    rw [List.length_map] at h
    obtain ⟨p, hp, hf1, c1, c2⟩ := hfind i h hl
    refine ⟨p, hp, c1, c2, ?_⟩
    rw [List.getElem_map]
    unfold moved
    have := (hld i h).1 hl
    rw [if_neg (by rintro (g | g); exact this.1 g; exact this.2 g), hf1]
    dsimp only
    have hd := hpc.mem p hp
    have e8 : field es[i] 8 8 = segOff f i := hfi i 8 8 h (by omega)
    have hsub : sub64 (segOff f i) p.disp = segOff f i - p.disp := by
      have := hx.segments i hl
      unfold sub64
      omega
    rw [e8, hsub]
    apply num_leBytes
    · intro k hk
      rw [byteAt_setField (by rw [hent i h]; omega), if_pos (by omega)]
      congr 1
      omega
    · have := hx.segments i hl
      have : segOff f i - p.disp < 2147483648 := by omega
      omega

set_option maxHeartbeats 1000000 in
theorem shrinkFile_spec {f : List Byte} (hx : Executable f) (hf : f.length < 2147483648) :
    ∃ out, shrinkFile f = .ok (some out) ∧ SameProgram f out ∧ Stripped f out := by
  obtain ⟨ps, p0, pT, eh', es', hps, hpc, hcov, ⟨hp0, z1, z2, z3, z4⟩, ⟨hpT, t1, t2⟩, hmod, hel, hnumT, hkeep, hzero, hesl, hes56, heskeep, hesoff⟩ := plan_spec hx hf
  have htab := hx.table
  have hnz := hx.nonempty
  have hbeh := hx.behind
  have hfl : es'.flatten.length = 56 * phNum f := by rw [flatten_length56 _ hes56, hesl]
  have hn : phNum f < 65536 := num_lt f 2 56
  have fe : ∀ a n, a + n ≤ 64 → field (f.take 64) a n = num f a n := fun a n h => by rw [field_num, num_take _ _ _ _ h]
  have esz : u32 (field (f.take 64) 54 2 * field (f.take 64) 56 2) = 56 * phNum f := by
    rw [fe 54 2 (by omega), fe 56 2 (by omega), hx.entsize]
    show u32 (56 * phNum f) = _
    unfold u32
    omega
  have eoff : field (f.take 64) 32 8 = phOff f := fe 32 8 (by omega)
  obtain ⟨out, e, o1, o2, o3, o4, o5⟩ := processFile_spec (f := f) (eh := eh') (ph := es'.flatten) (phoff := phOff f) (phsz := 56 * phNum f) hel hfl (by omega) hf ps 0 0 [] hpc
    (by simp) (by omega)
  have dT := hpc.mem pT hpT
  -- the header of the new file
  have hhead : ∀ x, x < 64 → byteAt out x = byteAt eh' x := by
    intro x h
    rw [o4 p0 hp0 x ⟨by omega, by omega⟩, z2]
    unfold newByte
    rw [if_neg (by omega), if_pos (by omega), Nat.zero_add]
  have hoff : phOff out = phOff f - pT.disp := by
    rw [← hnumT]
    exact num_congr 8 32 32 (fun k hk => hhead _ (by omega))
  have hnum : phNum out = phNum f := num_congr 2 56 56 (fun k hk => by rw [hhead _ (by omega), hkeep _ (by omega)])
  have hbo : 64 ≤ phOff out := by
    by_cases h : 64 ≤ phOff out
    · exact h
    · have := hpc.unique p0 hp0 pT hpT (phOff out) ⟨by omega, by omega⟩ ⟨by omega, by omega⟩
      rw [← this, z2] at hoff
      omega
  -- its program headers
  have htabB : ∀ i < phNum f, ∀ x < 56, byteAt out (phAt out i + x) = byteAt es'.flatten (56 * i + x) := by
    intro i hi x hx56
    have hin : In pT (phAt out i + x) := by
      unfold In phAt
      rw [hoff]
      omega
    rw [o4 pT hpT _ hin]
    unfold newByte phAt
    rw [hoff, if_pos (by omega)]
    congr 1
    omega
  have hkept : ∀ i < phNum f, ∀ x, (x < 8 ∨ (16 ≤ x ∧ x < 56)) → byteAt out (phAt out i + x) = byteAt f (phAt f i + x) := by
    intro i hi x h
    rw [htabB i hi x (by omega), byteAt_flatten _ hes56 i (by omega) x (by omega), heskeep i (by omega) x h]
  have hsegoff : ∀ i, Loads f i → ∃ p ∈ ps, p.offset ≤ segOff f i ∧ segOff f i + segSize f i ≤ p.offset + p.filesz ∧ segOff out i = segOff f i - p.disp := by
    intro i hl
    obtain ⟨p, hp, c1, c2, c3⟩ := hesoff i (by have := hl.1; omega) hl
    refine ⟨p, hp, c1, c2, ?_⟩
    rw [← c3]
    unfold segOff
    apply num_congr
    intro k hk
    rw [Nat.add_assoc, htabB i hl.1 _ (by omega), byteAt_flatten _ hes56 i (by have := hl.1; omega) _ (by omega)]
  have htype : ∀ i < phNum f, segType out i = segType f i := by
    intro i hi
    exact num_congr 4 (phAt out i) (phAt f i) (fun k hk => hkept i hi k (by omega))
  have hsize : ∀ i < phNum f, segSize out i = segSize f i := by
    intro i hi
    exact num_congr 8 (phAt out i + 32) (phAt f i + 32) (fun k hk => by
      rw [Nat.add_assoc, Nat.add_assoc]
      exact hkept i hi (32 + k) (by omega))
  refine ⟨out, ?_, ⟨?_, ?_, hbo, ?_, hkept, ?_, ?_, ?_, ?_, ?_⟩, ⟨?_, ?_, o1⟩⟩
  · unfold shrinkFile
    rw [readHdrs_eq hx (by omega), Res.ok_bind]
    dsimp only
    rw [hps, hmod]
    dsimp only
    rw [eoff, esz]
    exact e
  · intro x h
    rw [hhead x (by omega), hkeep x h]
  · obtain ⟨d, hd⟩ := dT.2.2.2.2.1
    exact ⟨d, by omega⟩
  · have := o3 pT hpT
    rw [hoff]
    omega
  · intro i hl
    obtain ⟨p, hp, c1, c2, c3⟩ := hsegoff i hl
    have hd := hpc.mem p hp
    obtain ⟨d, hd'⟩ := hd.2.2.2.2.1
    exact ⟨d, by omega⟩
  · intro i hl
    obtain ⟨p, hp, c1, c2, c3⟩ := hsegoff i hl
    have hd := hpc.mem p hp
    have := o3 p hp
    omega
  · intro i hl k hk hno
    obtain ⟨p, hp, c1, c2, c3⟩ := hsegoff i hl
    have hd := hpc.mem p hp
    rw [o4 p hp _ ⟨by omega, by omega⟩]
    have e1 : p.disp + (segOff out i + k) = segOff f i + k := by omega
    rw [e1]
    unfold newByte
    unfold InHeaders at hno
    rw [if_neg (by omega), if_neg (by omega)]
  · intro i hl k hk h64
    obtain ⟨p, hp, c1, c2, c3⟩ := hsegoff i hl
    have := hpc.uniqueIn p hp p0 hp0 (segOff f i + k) (by omega) (by omega) (by omega) (by omega)
    rw [c3, this, z2]
    omega
  · intro i hl k hk h1 h2
    obtain ⟨p, hp, c1, c2, c3⟩ := hsegoff i hl
    have := hpc.uniqueIn p hp pT hpT (segOff f i + k) (by omega) (by omega) (by omega) (by omega)
    have hd := hpc.mem p hp
    rw [c3, hoff, ← this]
    rw [← this] at dT t1
    omega
  · have hz : ∀ a n, (∀ k < n, byteAt out (a + k) = 0#8) → num out a n = 0 := by
      intro a n
      induction n generalizing a with
      | zero => intro _; rw [num]
      | succ n ih =>
        intro h
        have h0 := h 0 (by omega)
        rw [Nat.add_zero] at h0
        rw [num, h0, ih (a + 1) (fun k hk => by rw [Nat.add_assoc, Nat.add_comm 1 k]; exact h (k + 1) (by omega))]
        rfl
    refine ⟨hz _ _ ?_, hz _ _ ?_, hz _ _ ?_, hz _ _ ?_⟩ <;> intro k hk <;> rw [hhead _ (by omega), hzero _ (by omega)]
  · intro x hno hseg
    by_cases h : ∃ p ∈ ps, In p x
    · exfalso
      obtain ⟨p, hp, h1, h2⟩ := h
      have hd := hpc.mem p hp
      rcases (hcov (p.disp + x)).1 ⟨p, hp, by omega, by omega⟩ with (hh | hh) | ⟨i, hl, g1, g2⟩
      · have := hpc.uniqueIn p hp p0 hp0 (p.disp + x) (by omega) (by omega) (by omega) (by omega)
        exact hno (.inl (by omega))
      · have := hpc.uniqueIn p hp pT hpT (p.disp + x) (by omega) (by omega) (by omega) (by omega)
        rw [this] at hh
        refine hno (.inr ?_)
        rw [hoff, hnum]
        omega
      · obtain ⟨q, hq, c1, c2, c3⟩ := hsegoff i hl
        have := hpc.uniqueIn p hp q hq (p.disp + x) (by omega) (by omega) (by omega) (by omega)
        rw [this] at g1 g2
        have hdq := hpc.mem q hq
        refine hseg i ⟨by rw [hnum]; exact hl.1, by rw [htype i hl.1]; exact hl.2.1, by rw [hsize i hl.1]; exact hl.2.2⟩ ?_
        rw [hsize i hl.1, c3]
        omega
    · rw [o5 x (fun p hp hin => h ⟨p, hp, hin⟩)]
      rfl

/-- C90, in full: of every executable shrinkelf makes the same program, and nothing else is left in it. -/
def C90_shrink_full : Prop := ∀ f, Executable f → ∃ out, shrinkFile f = .ok (some out) ∧ SameProgram f out ∧ Stripped f out

/-- C90, for files below two gigabytes: the new file is the same program (headers, segments, their places in memory), everything else is gone.
Missing: larger files, see below. -/
theorem C90_shrink_partial {f : List Byte} (hx : Executable f) (hf : f.length < 2147483648) :
    ∃ out, shrinkFile f = .ok (some out) ∧ SameProgram f out ∧ Stripped f out := shrinkFile_spec hx hf

/-- C90: whatever the file contains: shrinkelf replaces the file and answers 0, or it answers 1 and leaves all files as they were; no other file is touched. -/
theorem C90_files {fs fs' : List Byte → Option (List Byte)} {free : Bool} {old : List Byte} {st : Int} (h : shrinkMain fs free old = .ok (fs', st)) :
    (st = 1 ∧ ∀ n, fs' n = fs n) ∨
    (st = 0 ∧ ∃ f out, fs old = some f ∧ shrinkFile f = .ok (some out) ∧ fs' old = some out ∧ ∀ n, n ≠ old → fs' n = fs n) := by
  have hne : old ++ shrinkSuffix ≠ old := by
    intro e
    have := congrArg List.length e
    simp [shrinkSuffix] at this
  unfold shrinkMain at h
  cases hfs : fs old with
  | none =>
    rw [hfs] at h
    cases h
    exact .inl ⟨rfl, fun _ => rfl⟩
  | some f =>
    rw [hfs] at h
    dsimp only at h
    obtain ⟨hd, e1, h⟩ := Res.bind_eq_ok.mp h
    cases hd with
    | none =>
      cases h
      exact .inl ⟨rfl, fun _ => rfl⟩
    | some hd =>
      obtain ⟨eh, ph⟩ := hd
      dsimp only at h
      cases hm : modifyHdrs (computeDisps 0 (computeRegions eh ph)) eh ph with
      | none =>
        rw [hm] at h
        cases h
        exact .inl ⟨rfl, fun _ => rfl⟩
      | some hd' =>
        obtain ⟨eh', ph'⟩ := hd'
        rw [hm] at h
        dsimp only at h
        by_cases hc : free = true ∧ fs (old ++ shrinkSuffix) = none
        · rw [if_pos hc] at h
          obtain ⟨r, e2, h⟩ := Res.bind_eq_ok.mp h
          cases r with
          | none =>
            cases h
            refine .inl ⟨rfl, fun n => ?_⟩
            dsimp only
            by_cases hn : n = old ++ shrinkSuffix
            · rw [if_pos hn, hn, hc.2]
            · rw [if_neg hn]
          | some out =>
            cases h
            refine .inr ⟨rfl, f, out, rfl, ?_, by dsimp only; rw [if_pos rfl], fun n hn => ?_⟩
            · unfold shrinkFile
              rw [e1, Res.ok_bind]
              dsimp only
              rw [hm]
              exact e2
            · dsimp only
              rw [if_neg hn]
              by_cases hn2 : n = old ++ shrinkSuffix
              · rw [if_pos hn2, hn2, hc.2]
              · rw [if_neg hn2]
        · rw [if_neg hc] at h
          cases h
          exact .inl ⟨rfl, fun _ => rfl⟩

/-- The first part of the headers of an executable with one segment, up to the flags of the segment. -/
def elfPre : List Byte :=
  [127, 69, 76, 70, 2, 1, 1, 0, 0, 0, 0, 0, 0, 0, 0, 0] ++ leBytes 2 2 ++ leBytes 2 62 ++ leBytes 4 1 ++ leBytes 8 0x400078 ++ leBytes 8 64 ++ leBytes 8 0 ++
    leBytes 4 0 ++ leBytes 2 64 ++ leBytes 2 56 ++ leBytes 2 1 ++ leBytes 2 0 ++ leBytes 2 0 ++ leBytes 2 0 ++ leBytes 4 1 ++ leBytes 4 5

/-- The headers of an executable with one segment. -/
def elfHdr (off size : Nat) : List Byte :=
  elfPre ++ (leBytes 8 off ++ ((leBytes 8 0x400078 ++ leBytes 8 0x400078) ++ (leBytes 8 size ++ (leBytes 8 size ++ leBytes 8 4096))))

theorem elfPre_length : elfPre.length = 72 := by decide +kernel

theorem elfHdr_length (off size : Nat) : (elfHdr off size).length = 120 := by
  simp only [elfHdr, leBytes_length, List.length_append, elfPre_length]

theorem num_pre {off size : Nat} {rest : List Byte} (a n : Nat) (h : a + n ≤ 72) : num (elfHdr off size ++ rest) a n = num elfPre a n :=
  num_congr n a a (fun k hk => by
    rw [byteAt_append, elfHdr_length, if_pos (by omega), elfHdr, byteAt_append, elfPre_length, if_pos (by omega)])

/-- Such headers, with the segment in the file, make an executable. -/
theorem elf_executable {off size : Nat} {rest : List Byte} (hs : off + size ≤ 120 + rest.length) (hz : off + size < 18446744073709551616) :
    Executable (elfHdr off size ++ rest) ∧ phOff (elfHdr off size ++ rest) = 64 ∧ phNum (elfHdr off size ++ rest) = 1 ∧
    segOff (elfHdr off size ++ rest) 0 = off ∧ segSize (elfHdr off size ++ rest) 0 = size ∧ segType (elfHdr off size ++ rest) 0 = 1 := by
  have e1 : phOff (elfHdr off size ++ rest) = 64 := by
    unfold phOff; rw [num_pre 32 8 (by omega)]; decide +kernel
  have e2 : phNum (elfHdr off size ++ rest) = 1 := by
    unfold phNum; rw [num_pre 56 2 (by omega)]; decide +kernel
  have e3 : segOff (elfHdr off size ++ rest) 0 = off := by
    unfold segOff phAt
    rw [e1]
    refine num_leBytes _ 8 off 72 (fun k hk => ?_) (by omega)
    rw [byteAt_append, elfHdr_length, if_pos (by omega), elfHdr, byteAt_append, elfPre_length, if_neg (by omega), byteAt_append, leBytes_length, if_pos (by omega)]
    congr 1
    omega
  have e4 : segSize (elfHdr off size ++ rest) 0 = size := by
    unfold segSize phAt
    rw [e1]
    refine num_leBytes _ 8 size 96 (fun k hk => ?_) (by omega)
    rw [byteAt_append, elfHdr_length, if_pos (by omega), elfHdr, byteAt_append, elfPre_length, if_neg (by omega), byteAt_append, leBytes_length, if_neg (by omega),
      byteAt_append, List.length_append, leBytes_length, if_neg (by omega), byteAt_append, leBytes_length, if_pos (by omega)]
    congr 1
    omega
  have e5 : segType (elfHdr off size ++ rest) 0 = 1 := by
    unfold segType phAt
    rw [e1, num_pre _ _ (by omega)]
    decide +kernel
  refine ⟨⟨?_, ?_, ?_, ?_, ?_, by omega, ?_, by omega, ?_, ?_⟩, e1, e2, e3, e4, e5⟩
  · rw [num_pre _ _ (by omega)]; decide +kernel
  · rw [num_pre _ _ (by omega)]; decide +kernel
  · rw [num_pre _ _ (by omega)]; decide +kernel
  · rw [num_pre _ _ (by omega)]; decide +kernel
  · rw [num_pre _ _ (by omega)]; decide +kernel
  · rw [List.length_append, elfHdr_length]; omega
  · rw [List.length_append, elfHdr_length]; omega
  · intro i hi
    have : i = 0 := by have := hi.1; omega
    rw [this, e3, e4, List.length_append, elfHdr_length]
    exact hs

/-- A program of four bytes, with five bytes of garbage behind. -/
example : ∃ out, shrinkFile (elfHdr 120 4 ++ [15#8, 5#8, 235#8, 252#8, 1#8, 2#8, 3#8, 4#8, 5#8]) = .ok (some out) ∧ segOff out 0 = 120 ∧
    byteAt out 122 = 235#8 ∧ byteAt out 124 = 0#8 := by
  have hs : 120 + 4 ≤ 120 + [15#8, 5#8, 235#8, 252#8, 1#8, 2#8, 3#8, 4#8, 5#8].length := by decide
  obtain ⟨hx, e1, e2, e3, e4, e5⟩ := elf_executable hs (by omega)
  have hL : Loads (elfHdr 120 4 ++ [15#8, 5#8, 235#8, 252#8, 1#8, 2#8, 3#8, 4#8, 5#8]) 0 := ⟨by omega, by omega, by omega⟩
  obtain ⟨out, e, hsame, hstr⟩ := C90_shrink_partial hx (by rw [List.length_append, elfHdr_length]; decide)
  obtain ⟨d, hd⟩ := hsame.pages 0 hL
  have ho : segOff out 0 = 120 := by omega
  have hc := hsame.contents 0 hL 2 (by omega) (by unfold InHeaders; omega)
  rw [ho, e3] at hc
  obtain ⟨d2, hd2⟩ := hsame.moved
  have hn : phNum out = 1 := by
    rw [← e2]
    exact num_congr 2 56 56 (fun k hk => hsame.header _ (by omega))
  have hk := hsame.behind
  refine ⟨out, e, ho, by rw [hc, byteAt_append, elfHdr_length]; rfl, hstr.rest 124 (by unfold InHeaders; omega) (fun i hi h => ?_)⟩
  have hi0 : i = 0 := by have := hi.1; omega
  rw [hi0] at h
  have hsz : segSize out 0 = 4 := by
    rw [← e4]
    unfold segSize
    exact num_congr 8 (phAt out 0 + 32) _ (fun k hk => by
      rw [Nat.add_assoc, Nat.add_assoc]
      exact hsame.kept 0 (by omega) (32 + k) (by omega))
  omega

/-- `lseek` behind two gigabytes. -/
theorem seekSet_far {f : List Byte} {pos off : Nat} (h0 : 2147483648 < off) (h1 : off < 4294967296) : seekSet f pos off = .ok none := by
  have e0 : BitVec.ofInt 32 (BitVec.ofNat 32 off).toInt = BitVec.ofInt 32 (off : Int) := by
    rw [BitVec.ofInt_toInt]
    rfl
  have e := C81_lseek_far_refuted (f := ⟨pos, f.length⟩) (off := (off : Int)) (errno := 0) (by omega) (by omega)
  unfold lseek at e
  rw [← e0] at e
  unfold seekSet lseek
  rw [e]
  rfl

/-- C90 fails for large files: a segment of one byte a little behind two gigabytes (`lseek` answers an error, see C81). -/
theorem C90_far_refuted : ¬ C90_shrink_full := by
  intro h
  obtain ⟨hx, e1, e2, e3, e4, e5⟩ := elf_executable (off := 2147487744) (size := 1) (rest := List.replicate 2147487625 0#8) (by rw [List.length_replicate]; omega) (by omega)
  obtain ⟨out, e, _⟩ := h _ hx
  unfold shrinkFile at e
  rw [readHdrs_eq hx (by omega), Res.ok_bind] at e
  dsimp only at e
  rw [e1, e2] at e
  have t1 : (elfHdr 2147487744 1 ++ List.replicate 2147487625 0#8).take 64 = (elfHdr 2147487744 1).take 64 := List.take_append_of_le_length (by rw [elfHdr_length]; omega)
  have t2 : ((elfHdr 2147487744 1 ++ List.replicate 2147487625 0#8).drop 64).take (56 * 1) = (elfHdr 2147487744 1).drop 64 := by
    rw [List.drop_append_of_le_length (by rw [elfHdr_length]; omega), List.take_append_of_le_length (by rw [List.length_drop, elfHdr_length]; omega), List.take_of_length_le]
    rw [List.length_drop, elfHdr_length]
    omega
  rw [t1, t2] at e
  have r : computeDisps 0 (computeRegions ((elfHdr 2147487744 1).take 64) (entries 1 ((elfHdr 2147487744 1).drop 64))) =
      [⟨0, 120, 0, 0⟩, ⟨2147487744, 1, 2147483648, 4096⟩] := by decide +kernel
  rw [r] at e
  obtain ⟨⟨eh', ph'⟩, hm⟩ : ∃ x, modifyHdrs [⟨0, 120, 0, 0⟩, ⟨2147487744, 1, 2147483648, 4096⟩] ((elfHdr 2147487744 1).take 64) (entries 1 ((elfHdr 2147487744 1).drop 64)) = some x :=
    Option.isSome_iff_exists.mp (by decide +kernel)
  rw [hm] at e
  dsimp only at e
  rw [processFile, seekSet_eq (by decide), Res.ok_bind] at e
  dsimp only at e
  rw [seekSet_eq (by decide), Res.ok_bind] at e
  dsimp only at e
  split at e
  · cases e
  · rw [processFile, seekSet_far (by decide) (by decide), Res.ok_bind] at e
    cases e

theorem stpcpyLoop_ub : ∀ (k : Nat) {m : Mem} {d src : Nat} {s : List Byte}, m.IsStr src s → m.Mapped d k → m (d + k) = none → k ≤ s.length →
    Disjoint d k src (s.length + 1) → stpcpyLoop m d src = .ub := by
  intro k
  induction k with
  | zero =>
    intro m d src s h _ hn _ _
    rw [Nat.add_zero] at hn
    cases s with
    | nil =>
      rw [stpcpyLoop, load_some (isStr_nil.1 h)]
      simp only [Res.ok_bind]
      rw [if_neg (by simp), store_none hn]
      rfl
    | cons b s =>
      obtain ⟨h1, h2, _⟩ := isStr_cons.1 h
      rw [stpcpyLoop, load_some h1]
      simp only [Res.ok_bind]
      rw [if_pos h2, store_none hn]
      rfl
  | succ k ih =>
    intro m d src s h hd hn hk hdis
    cases s with
    | nil => simp at hk
    | cons b s =>
      obtain ⟨h1, h2, h3⟩ := isStr_cons.1 h
      obtain ⟨⟨c, hc⟩, hd⟩ := mapped_succ.1 hd
      have hdis' : d + k < src ∨ src + s.length + 1 < d := by
        rw [List.length_cons] at hdis
        by_cases hc : d ≤ src
        · have := hdis src; omega
        · have := hdis d; omega
      rw [stpcpyLoop, load_some h1]
      simp only [Res.ok_bind]
      rw [if_pos h2, store_some hc, Res.ok_bind]
      exact ih (h3.upd _ (by omega)) (hd.upd _ _) (by rw [upd_ne (by omega), ← hn]; congr 1; omega) (by simpa using hk) (by intro a; omega)

/-- C90 fails: the name of the temporary file is three bytes longer than the memory asked for; three of four names are written beyond the block, which
`malloc` rounds up to a multiple of four. -/
theorem C90_tmpname_refuted {m : Mem} {tmp old lit : Nat} {s : List Byte} (hs : m.IsStr old s) (ho : old ≠ 0) (hl : s.length < 2147483647) (hlit : m.IsStr lit shrinkSuffix)
    (hm : m.Mapped tmp ((s.length + 8 + 3) / 4 * 4)) (hn : m (tmp + (s.length + 8 + 3) / 4 * 4) = none) (hd : Disjoint tmp ((s.length + 8 + 3) / 4 * 4) old (s.length + 1))
    (hd2 : Disjoint tmp ((s.length + 8 + 3) / 4 * 4) lit 11) (h4 : s.length % 4 ≠ 1) : tmpName m tmp old lit = .ub := by
  have hdo : tmp + s.length < old ∨ old + s.length < tmp := by
    by_cases hc : tmp ≤ old
    · have := hd old; omega
    · have := hd tmp; omega
  have hdl : tmp + (s.length + 8 + 3) / 4 * 4 ≤ lit ∨ lit + 11 ≤ tmp := by
    by_cases hc : tmp ≤ lit
    · have := hd2 lit; omega
    · have := hd2 tmp; omega
  have e1 := C02_strcpy (dest := tmp) hs (hm.mono (by omega)) (by intro a; omega)
  have hw : ∀ {p : Nat} {t : List Byte}, m.IsStr p t → (p + t.length < tmp ∨ tmp + s.length < p) → (m.write tmp (s ++ [0#8])).IsStr p t := by
    intro p t ht hh
    refine ⟨ht.1.write (by simp; omega), ?_, ht.2.2⟩
    rw [write_outside _ _ _ _ (by simp; omega)]
    exact ht.2.1
  have e2 : strlen (m.write tmp (s ++ [0#8])) old = .ok s.length := C01_strlen (hw hs (by omega)) ho (by omega)
  have hll : shrinkSuffix.length = 10 := rfl
  have e3 : strcpy (m.write tmp (s ++ [0#8])) (tmp + s.length) lit = .ub := by
    unfold strcpy
    rw [stpcpyLoop_ub ((s.length + 8 + 3) / 4 * 4 - s.length) (hw hlit (by omega)) ?_ ?_ (by omega) (by rw [hll]; intro a; omega)]
    · rfl
    · intro i hi
      have := (hm.write tmp (s ++ [0#8])) (s.length + i) (by omega)
      rwa [← Nat.add_assoc] at this
    · rw [show tmp + s.length + ((s.length + 8 + 3) / 4 * 4 - s.length) = tmp + (s.length + 8 + 3) / 4 * 4 by omega, write_outside _ _ _ _ (by simp; omega)]
      exact hn
  unfold tmpName
  rw [e1, Res.ok_bind]
  dsimp only
  rw [e2, Res.ok_bind, e3]
  rfl

/-- The name "ab" needs 13 bytes, the block has 12. -/
example : tmpName (objects [(100, [97, 98, 0]), (200, shrinkSuffix ++ [0]), (300, List.replicate 12 7)]) 300 100 200 = .ub :=
  C90_tmpname_refuted (s := [97#8, 98#8]) ⟨by decide, by decide, by decide⟩ (by decide) (by decide) ⟨by decide, by decide, by decide⟩
    (by intro i hi; exact Option.isSome_iff_exists.1 ((by decide : ∀ i < 12, ((objects [(100, [97, 98, 0]), (200, shrinkSuffix ++ [0]), (300, List.replicate 12 7)]) (300 + i)).isSome) i hi))
    (by decide) (by intro a; simp; omega) (by intro a; simp; omega) (by decide)

/-- C90: a missing file: nothing is changed. -/
example : ∃ fs', shrinkMain (fun _ => none) true [97#8] = .ok (fs', 1) ∧ ∀ n, fs' n = none := by
  obtain ⟨fs', h⟩ : ∃ fs', shrinkMain (fun _ => none) true [97#8] = .ok (fs', 1) := ⟨_, rfl⟩
  rcases C90_files h with g | ⟨g, -⟩
  · exact ⟨fs', h, g.2⟩
  · cases g

end Minilib

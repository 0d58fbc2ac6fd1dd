import Verif.Lemmas.Elftrunc
import Verif.Props.Shrinkelf
/-
C108: elftrunc cuts a static executable off behind its last loaded segment.
-/

set_option autoImplicit false

namespace Minilib
open Mem Spec

/-- ".trunc" -/
def dotTrunc : List Byte := [46#8, 116#8, 114#8, 117#8, 110#8, 99#8]

/-- An ELF file whose table of program headers begins in the first two gigabytes: the right one of the two functions is called. -/
theorem truncOne_eq {fs : Files} {a f : List Byte} (hf : ElfFile f) (hfs : fs a = some f) (can : Bool) :
    ∃ k, KindOf k (elfLayout f) ∧ k.size = 256 ^ (elfLayout f).addr ∧ k.eof = (if byteAt f 4 = 2#8 then 2 else 0) ∧
      truncOne fs can a = truncFile k fs can a (a.take 1014 ++ dotTrunc) f := by
  have hlong : 52 ≤ f.length := by
    have := hf.long
    unfold elfLayout at this
    split at this
    · exact Nat.le_trans (by decide) this
    · exact this
  have hl : (readAt f 0 16).length = 16 := readAt_length (by omega)
  have hne : readAt f 0 16 ≠ [] := by
    intro e
    rw [e] at hl
    simp at hl
  have hb : byteAt (readAt f 0 16) 4 = byteAt f 4 := by
    unfold readAt
    rw [byteAt_take _ _ _ (by omega), byteAt_drop]
  have hm : (readAt f 0 16).take 4 = [127#8, 69#8, 76#8, 70#8] := by
    rw [← hf.magic]
    unfold readAt
    rw [List.take_take, List.drop_zero]
    rfl
  unfold truncOne
  rw [hfs]
  dsimp only
  rw [if_neg hne, hl, Nat.sub_self, List.replicate_zero, List.append_nil, if_neg (not_not_intro hm)]
  show ∃ k, _ ∧ _ ∧ _ ∧ (if byteAt (readAt f 0 16) 4 = 2#8 then _ else _) = _
  rw [hb]
  by_cases h : byteAt f 4 = 2#8
  · have el : elfLayout f = elf64 := if_pos h
    rw [el, if_pos h, if_pos h]
    exact ⟨kind64, kindOf64, by decide, rfl, rfl⟩
  · have el : elfLayout f = elf32 := if_neg h
    rw [el, if_neg h, if_neg h]
    exact ⟨kind32, kindOf32, by decide, rfl, rfl⟩

/-! ### what is wanted -/

/-- C108, full claim: of every static ELF file whose segments are in the file, the new file gets the loaded segments and the table of program headers, unchanged; no
other file is touched. -/
def C108_trunc_full : Prop := ∀ (fs : Files) (a f : List Byte), ElfFile f → fs a = some f → (∀ i, ¬ ElfDynamic f i) → (∀ i, ElfLoads f i → elfEnd f i ≤ f.length) →
  ∃ fs' out, truncMain fs true [a] = .ok (fs', 0) ∧ fs' (a ++ dotTrunc) = some out ∧ (∀ n, n ≠ a ++ dotTrunc → fs' n = fs n) ∧
    elfPhOff f + (elfLayout f).phdr * elfPhNum f ≤ out.length ∧ (∀ i, ElfLoads f i → elfEnd f i ≤ out.length) ∧
    ∀ x < out.length, ¬ ElfSections f x → byteAt out x = byteAt f x

/-- C108 (partial: names of at most 1014 characters, the table begins in the first two gigabytes, 32 bit files below four gigabytes, a loaded segment that ends behind the ELF
header): the new file is the old one up to the end of the last loaded segment, with the section table removed from the header; no other file is touched.
The table of program headers is there when it lies in front of that end. -/
theorem C108_trunc_partial {fs : Files} {a f : List Byte} {e : Nat} (hf : ElfFile f) (hfs : fs a = some f) (hs : ∀ i, ¬ ElfDynamic f i)
    (hlast : ElfLast f e) (hin : e ≤ f.length) (he : (elfLayout f).ehdr ≤ e) (hp : elfPhOff f < 2147483648) (hz : f.length < 256 ^ (elfLayout f).addr)
    (ha : a.length ≤ 1014) :
    ∃ fs' out, truncMain fs true [a] = .ok (fs', 0) ∧ fs' (a ++ dotTrunc) = some out ∧ (∀ n, n ≠ a ++ dotTrunc → fs' n = fs n) ∧ out.length = e ∧
      ∀ x < e, (ElfSections f x → byteAt out x = 0#8) ∧ (¬ ElfSections f x → byteAt out x = byteAt f x) := by
  obtain ⟨k, hk, hsz, _, heq⟩ := truncOne_eq hf hfs true
  rw [List.take_of_length_le ha] at heq
  have hne : a ≠ a ++ dotTrunc := by
    intro h
    have := congrArg List.length h
    simp [dotTrunc] at this
  have hlt : ∀ i, ElfLoads f i → elfEnd f i < k.size := fun i hi => by
    have := hlast.2 i hi
    omega
  obtain ⟨len, e1, _, h2, h3⟩ := truncScan_static hk hf hs hlt (elfPhNum f) 0 [] 0 (by omega)
  have hlen : len = e := by
    obtain ⟨⟨i, hi, rfl⟩, h5⟩ := hlast
    have h6 := h2 i (Nat.zero_le _) hi
    rcases h3 with h3 | ⟨j, hj, h3⟩
    · have := hf.long; omega
    · have := h5 j hj; omega
  subst hlen
  have hd := truncHdr_spec hk hf
  have hke := hk.eh
  have hmod : (len + k.size - k.eh) % k.size = len - k.eh := by
    rw [show len + k.size - k.eh = len - k.eh + k.size by omega, Nat.add_mod_right]
    exact Nat.mod_eq_of_lt (by omega)
  have hcopy := truncCopy_enough k hne (len - k.eh) (fs.set (a ++ dotTrunc) (some (truncHdr k f))) (truncHdr k f) (len - k.eh) (Nat.le_refl _)
    (by rw [Files.set_other _ _ hne, hfs]) (Files.set_same _ _ _) (by rw [hd.1]; omega)
  rw [hd.1] at hcopy
  refine ⟨(fs.set (a ++ dotTrunc) (some (truncHdr k f))).set (a ++ dotTrunc) (some (truncHdr k f ++ (f.drop k.eh).take (len - k.eh))), truncHdr k f ++ (f.drop k.eh).take (len - k.eh), ?_, Files.set_same _ _ _, fun n hn => ?_, ?_, fun x hx => ?_⟩
  · show truncOne fs true a = _
    rw [heq, truncFile_eq hk hf hp, e1, Res.bind]
    simp only [Bool.true_eq_false, if_false]
    rw [hmod, hcopy]
  · rw [Files.set_other _ _ hn, Files.set_other _ _ hn]
  · rw [List.length_append, hd.1, List.length_take, List.length_drop]
    omega
  · rw [byteAt_append, hd.1]
    by_cases hxe : x < k.eh
    · rw [if_pos hxe]
      exact hd.2 x hxe
    · rw [if_neg hxe, byteAt_take _ _ _ (by omega), byteAt_drop, show k.eh + (x - k.eh) = x by omega]
      refine ⟨fun h => ?_, fun _ => rfl⟩
      have h1 := hk.shoffIn
      have h2 := hk.shnumIn
      have h3 := hk.shstrIn
      rw [hk.shoff, hk.w] at h1
      rw [hk.shnum] at h2
      rw [hk.shstr] at h3
      unfold ElfSections at h
      omega

/-- C108 (partial: as above): with a second argument the new file gets that name; this may be the name of the source. -/
theorem C108_rename_partial {fs : Files} {a d f : List Byte} {e : Nat} (hf : ElfFile f) (hfs : fs a = some f) (hs : ∀ i, ¬ ElfDynamic f i)
    (hlast : ElfLast f e) (hin : e ≤ f.length) (he : (elfLayout f).ehdr ≤ e) (hp : elfPhOff f < 2147483648) (hz : f.length < 256 ^ (elfLayout f).addr)
    (ha : a.length ≤ 1014) (hd : d ≠ a ++ dotTrunc) :
    ∃ fs' out, truncMain fs true [a, d] = .ok (fs', 0) ∧ fs' d = some out ∧ fs' (a ++ dotTrunc) = none ∧ (∀ n, n ≠ d → n ≠ a ++ dotTrunc → fs' n = fs n) ∧ out.length = e ∧
      ∀ x < e, (ElfSections f x → byteAt out x = 0#8) ∧ (¬ ElfSections f x → byteAt out x = byteAt f x) := by
  obtain ⟨fs', out, h1, h2, h3, h4, h5⟩ := C108_trunc_partial hf hfs hs hlast hin he hp hz ha
  have hn : truncName a = a ++ dotTrunc := by
    unfold truncName
    rw [List.take_of_length_le ha]
    rfl
  refine ⟨(fs'.set d (fs' (truncName a))).set (truncName a) none, out, ?_, ?_, ?_, fun n g1 g2 => ?_, h4, h5⟩
  · show (truncOne fs true a).bind _ = _
    rw [show truncOne fs true a = _ from h1, Res.bind, hn]
    simp only [hd, ne_eq, not_false_eq_true, and_self, if_true]
    rfl
  · rw [hn, Files.set_other _ _ hd, Files.set_same, h2]
  · rw [hn, Files.set_same]
  · rw [hn, Files.set_other _ _ g2, Files.set_other _ _ g1, h3 n g2]

/-- C108: a file that needs the dynamic linker is refused; nothing is written. -/
theorem C108_dynamic {fs : Files} {a f : List Byte} {i : Nat} (hf : ElfFile f) (hfs : fs a = some f) (hi : ElfDynamic f i) (hp : elfPhOff f < 2147483648) (can : Bool) :
    truncMain fs can [a] = .ok (fs, 3) := by
  obtain ⟨k, hk, _, _, heq⟩ := truncOne_eq hf hfs can
  show truncOne fs can a = _
  rw [heq, truncFile_eq hk hf hp, truncScan_dynamic hk hf _ 0 _ _ (by omega) ⟨i, Nat.zero_le _, hi⟩]
  rfl

/-- C108: what is not an ELF file, or is not there, is refused; nothing is written. -/
theorem C108_other {fs : Files} {a : List Byte} (h : ∀ f, fs a = some f → f.take 4 ≠ [127#8, 69#8, 76#8, 70#8]) (can : Bool) :
    ∃ st, truncMain fs can [a] = .ok (fs, st) ∧ st ≠ 0 := by
  show ∃ st, truncOne fs can a = _ ∧ _
  unfold truncOne
  cases hfs : fs a with
  | none => exact ⟨1, rfl, by decide⟩
  | some f =>
    dsimp only
    split
    · exact ⟨2, rfl, by decide⟩
    · rw [if_pos]
      · exact ⟨2, rfl, by decide⟩
      · intro e
        refine h f hfs ?_
        have hl : (readAt f 0 16).length = min 16 f.length := by
          unfold readAt
          rw [List.length_take, List.length_drop, Nat.sub_zero]
        by_cases h4 : 4 ≤ f.length
        · rw [List.take_append_of_le_length (by omega)] at e
          unfold readAt at e
          rw [List.take_take, List.drop_zero] at e
          exact e
        · have e0 : byteAt _ 3 = byteAt _ 3 := congrArg (fun l => byteAt l 3) e
          rw [byteAt_take _ _ _ (by omega), byteAt_append, if_neg (by omega), byteAt_replicate] at e0
          exact absurd e0 (by decide)

/-- C108 (partial: names of at most 1014 characters): whatever the source contains, when the program ends, no file but the new one has changed. -/
theorem C108_files_partial {fs fs' : Files} {can : Bool} {a : List Byte} {st : Int} (ha : a.length ≤ 1014) (h : truncMain fs can [a] = .ok (fs', st)) :
    (∀ n, n ≠ a ++ dotTrunc → fs' n = fs n) ∧ (can = false → fs' = fs ∧ st ≠ 0) := by
  have hone : truncOne fs can a = .ok (fs', st) := h
  have hn : truncName a = a ++ dotTrunc := by
    unfold truncName
    rw [List.take_of_length_le ha]
    rfl
  have hfile : ∀ k f, truncFile k fs can a (truncName a) f = .ok (fs', st) → (∀ n, n ≠ a ++ dotTrunc → fs' n = fs n) ∧ (can = false → fs' = fs ∧ st ≠ 0) := by
    intro k f e
    have triv : ∀ s : Int, s ≠ 0 → Res.ok (fs, s) = .ok (fs', st) → (∀ n, n ≠ a ++ dotTrunc → fs' n = fs n) ∧ (can = false → fs' = fs ∧ st ≠ 0) := by
      intro s hs e
      simp only [Res.ok.injEq, Prod.mk.injEq] at e
      obtain ⟨rfl, rfl⟩ := e
      exact ⟨fun _ _ => rfl, fun _ => ⟨rfl, hs⟩⟩
    unfold truncFile at e
    dsimp only at e
    split at e
    · exact triv 3 (by decide) e
    · cases h1 : known (readAt f 0 k.eh) k.phoff k.w with
      | ub => rw [h1] at e; cases e
      | div => rw [h1] at e; cases e
      | ok po =>
        rw [h1, Res.ok_bind] at e
        cases h2 : seekSet f (readAt f 0 k.eh).length po with
        | ub => rw [h2] at e; cases e
        | div => rw [h2] at e; cases e
        | ok p =>
          rw [h2, Res.ok_bind] at e
          cases h3 : known (readAt f 0 k.eh) k.phnum 2 with
          | ub => rw [h3] at e; cases e
          | div => rw [h3] at e; cases e
          | ok q =>
            rw [h3, Res.ok_bind] at e
            cases h4 : truncScan k f q (p.getD (readAt f 0 k.eh).length) [] 0 with
            | ub => rw [h4] at e; cases e
            | div => rw [h4] at e; cases e
            | ok r =>
              rw [h4, Res.ok_bind] at e
              cases r with
              | none => exact triv 3 (by decide) e
              | some len =>
                dsimp only at e
                split at e
                · exact triv 2 (by decide) e
                · rename_i hc
                  refine ⟨fun n hne => ?_, fun hc' => absurd hc' hc⟩
                  have e2 := Res.ok.inj e
                  rw [← hn] at hne
                  rw [show fs' = _ from (congrArg Prod.fst e2).symm, (truncCopy_others k _ _ _ _ _ (Nat.le_refl _)).1 n hne, Files.set_other _ _ hne]
  unfold truncOne at hone
  cases hfs : fs a with
  | none =>
    rw [hfs] at hone
    cases hone
    exact ⟨fun _ _ => rfl, fun _ => ⟨rfl, by decide⟩⟩
  | some f =>
    rw [hfs] at hone
    dsimp only at hone
    split at hone
    · cases hone
      exact ⟨fun _ _ => rfl, fun _ => ⟨rfl, by decide⟩⟩
    · split at hone
      · cases hone
        exact ⟨fun _ _ => rfl, fun _ => ⟨rfl, by decide⟩⟩
      · split at hone
        · exact hfile _ _ hone
        · exact hfile _ _ hone

/-- C108 (partial: as above): a 64 bit file that ends in front of the end of its last loaded segment is refused with status 2, after all of it was copied; for a 32 bit file the status is 0. -/
theorem C108_damaged_partial {fs : Files} {a f : List Byte} {e : Nat} (hf : ElfFile f) (hfs : fs a = some f) (hs : ∀ i, ¬ ElfDynamic f i)
    (hlast : ElfLast f e) (hin : f.length < e) (hp : elfPhOff f < 2147483648) (hz : e < 256 ^ (elfLayout f).addr) (ha : a.length ≤ 1014) :
    ∃ fs' out, truncMain fs true [a] = .ok (fs', if byteAt f 4 = 2#8 then 2 else 0) ∧ fs' (a ++ dotTrunc) = some out ∧ (∀ n, n ≠ a ++ dotTrunc → fs' n = fs n) ∧ out.length = f.length ∧
      ∀ x < f.length, ¬ ElfSections f x → byteAt out x = byteAt f x := by
  obtain ⟨k, hk, hsz, heof, heq⟩ := truncOne_eq hf hfs true
  rw [List.take_of_length_le ha] at heq
  have hne : a ≠ a ++ dotTrunc := by
    intro h
    have := congrArg List.length h
    simp [dotTrunc] at this
  have hlt : ∀ i, ElfLoads f i → elfEnd f i < k.size := fun i hi => by
    have := hlast.2 i hi
    omega
  obtain ⟨len, e1, _, h2, h3⟩ := truncScan_static hk hf hs hlt (elfPhNum f) 0 [] 0 (by omega)
  have hlen : len = e := by
    obtain ⟨⟨i, hi, rfl⟩, h5⟩ := hlast
    have h6 := h2 i (Nat.zero_le _) hi
    rcases h3 with h3 | ⟨j, hj, h3⟩
    · have := hf.long; omega
    · have := h5 j hj; omega
  subst hlen
  have hd := truncHdr_spec hk hf
  have hke := hk.eh
  have hl := hf.long
  have hmod : (len + k.size - k.eh) % k.size = len - k.eh := by
    rw [show len + k.size - k.eh = len - k.eh + k.size by omega, Nat.add_mod_right]
    exact Nat.mod_eq_of_lt (by omega)
  have hcopy := truncCopy_short k hne (len - k.eh) (fs.set (a ++ dotTrunc) (some (truncHdr k f))) (truncHdr k f) (len - k.eh) (Nat.le_refl _)
    (by rw [Files.set_other _ _ hne, hfs]) (Files.set_same _ _ _) (by rw [hd.1]; omega) (by rw [hd.1]; omega)
  rw [hd.1] at hcopy
  refine ⟨(fs.set (a ++ dotTrunc) (some (truncHdr k f))).set (a ++ dotTrunc) (some (truncHdr k f ++ f.drop k.eh)), truncHdr k f ++ f.drop k.eh, ?_, Files.set_same _ _ _, fun n hn => ?_, ?_, fun x hx hsec => ?_⟩
  · show truncOne fs true a = _
    rw [heq, truncFile_eq hk hf hp, e1, Res.bind]
    simp only [Bool.true_eq_false, if_false]
    rw [hmod, hcopy, heof]
  · rw [Files.set_other _ _ hn, Files.set_other _ _ hn]
  · rw [List.length_append, hd.1, List.length_drop]
    omega
  · rw [byteAt_append, hd.1]
    by_cases hxe : x < k.eh
    · rw [if_pos hxe]
      exact (hd.2 x hxe).2 hsec
    · rw [if_neg hxe, byteAt_drop, show k.eh + (x - k.eh) = x by omega]

/-- C108 (partial: as above): when no loaded segment reaches the end of the ELF header, or there is none, all of the file is copied; for a 64 bit file the status is 2 then. -/
theorem C108_empty_partial {fs : Files} {a f : List Byte} (hf : ElfFile f) (hfs : fs a = some f) (hs : ∀ i, ¬ ElfDynamic f i)
    (hno : ∀ i, ElfLoads f i → elfEnd f i < (elfLayout f).ehdr) (hp : elfPhOff f < 2147483648) (hz : f.length < 256 ^ (elfLayout f).addr - (elfLayout f).ehdr) (ha : a.length ≤ 1014) :
    ∃ fs' out, truncMain fs true [a] = .ok (fs', if byteAt f 4 = 2#8 then 2 else 0) ∧ fs' (a ++ dotTrunc) = some out ∧ (∀ n, n ≠ a ++ dotTrunc → fs' n = fs n) ∧ out.length = f.length ∧
      ∀ x < f.length, ¬ ElfSections f x → byteAt out x = byteAt f x := by
  obtain ⟨k, hk, hsz, heof, heq⟩ := truncOne_eq hf hfs true
  rw [List.take_of_length_le ha] at heq
  have hne : a ≠ a ++ dotTrunc := by
    intro h
    have := congrArg List.length h
    simp [dotTrunc] at this
  have hl := hf.long
  have hke := hk.eh
  have hlt : ∀ i, ElfLoads f i → elfEnd f i < k.size := fun i hi => by
    have := hno i hi
    omega
  obtain ⟨len, e1, _, h2, h3⟩ := truncScan_static hk hf hs hlt (elfPhNum f) 0 [] 0 (by omega)
  have h1 := hk.phoffIn
  have h2 := hk.phnumIn
  have hlen : len < k.eh := by
    rcases h3 with h3 | ⟨j, hj, h3⟩
    · omega
    · have := hno j hj; omega
  clear h3
  have hd := truncHdr_spec hk hf
  have hmod : (len + k.size - k.eh) % k.size = len + k.size - k.eh := Nat.mod_eq_of_lt (by omega)
  have hcopy := truncCopy_short k hne (len + k.size - k.eh) (fs.set (a ++ dotTrunc) (some (truncHdr k f))) (truncHdr k f) (len + k.size - k.eh) (Nat.le_refl _)
    (by rw [Files.set_other _ _ hne, hfs]) (Files.set_same _ _ _) (by rw [hd.1]; omega) (by rw [hd.1]; omega)
  rw [hd.1] at hcopy
  refine ⟨(fs.set (a ++ dotTrunc) (some (truncHdr k f))).set (a ++ dotTrunc) (some (truncHdr k f ++ f.drop k.eh)), truncHdr k f ++ f.drop k.eh, ?_, Files.set_same _ _ _, fun n hn => ?_, ?_, fun x hx hsec => ?_⟩
  · show truncOne fs true a = _
    rw [heq, truncFile_eq hk hf hp, e1, Res.bind]
    simp only [Bool.true_eq_false, if_false]
    rw [hmod, hcopy, heof]
  · rw [Files.set_other _ _ hn, Files.set_other _ _ hn]
  · rw [List.length_append, hd.1, List.length_drop]
    omega
  · rw [byteAt_append, hd.1]
    by_cases hxe : x < k.eh
    · rw [if_pos hxe]
      exact (hd.2 x hxe).2 hsec
    · rw [if_neg hxe, byteAt_drop, show k.eh + (x - k.eh) = x by omega]

/-- C108: the name of the new file is put together inside of the array of 1024 bytes, which is zero before, and nothing else is written. -/
theorem C108_name {m : Mem} {fn a lit : Nat} {s : List Byte} (hs : m.IsStr a s) (hl : m.IsStr lit dotTrunc) (h0 : fn ≠ 0)
    (hz : ∀ i < 1024, m (fn + i) = some 0#8) (hda : Disjoint fn 1024 a (s.length + 1)) (hdl : Disjoint fn 1024 lit 7) :
    ∃ m', truncNameMem m fn a lit = .ok m' ∧ m'.IsStr fn (s.take 1014 ++ dotTrunc) ∧ ∀ p, p < fn ∨ fn + 1024 ≤ p → m' p = m p := by
  have hm : m.Mapped fn 1014 := fun i hi => ⟨_, hz i (by omega)⟩
  have e1 := C04_strncpy_string_partial (n := 1014) hs hm (fun p => by have := hda p; omega) (by omega)
  generalize hw : m.write fn (s.take 1014 ++ List.replicate (1014 - s.length) 0#8) = m1 at e1
  have hlen : (s.take 1014 ++ List.replicate (1014 - s.length) 0#8).length = 1014 := by
    rw [List.length_append, List.length_take, List.length_replicate]
    omega
  have hout : ∀ p, p < fn ∨ fn + 1014 ≤ p → m1 p = m p := fun p hp => by
    rw [← hw]
    exact write_outside _ _ _ _ (by rw [hlen]; exact hp)
  have hholds : m1.Holds fn (s.take 1014) := by
    have := write_holds m fn (s.take 1014 ++ List.replicate (1014 - s.length) 0#8)
    rw [hw, holds_append] at this
    exact this.1
  have hstr : m1.IsStr fn (s.take 1014) := by
    refine ⟨hholds, ?_, fun b hb => hs.2.2 b (List.mem_of_mem_take hb)⟩
    by_cases h : s.length < 1014
    · have e : (s.take 1014).length = s.length := by rw [List.length_take]; omega
      have := write_holds m fn (s.take 1014 ++ List.replicate (1014 - s.length) 0#8)
      rw [hw, holds_append] at this
      have h2 := this.2 0 (by rw [List.length_replicate]; omega)
      rw [List.getElem_replicate] at h2
      exact h2
    · have e : (s.take 1014).length = 1014 := by rw [List.length_take]; omega
      rw [e, hout _ (by omega)]
      exact hz 1014 (by omega)
  have hlit : m1.IsStr lit dotTrunc := by
    rw [← hw]
    exact hl.write (by
      have h1 : dotTrunc.length = 6 := rfl
      have h2 := hdl fn
      have h3 := hdl lit
      rw [hlen, h1]
      omega)
  have hle : (s.take 1014).length ≤ 1014 := by rw [List.length_take]; omega
  have hmap : m1.Mapped fn 1024 := by
    rw [← hw]
    exact Mapped.write (fun i hi => ⟨_, hz i hi⟩) _ _
  have e2 := C03_strcat hstr hlit h0 (by omega) (fun i hi => by
      have h1 : dotTrunc.length = 6 := rfl
      have := hmap ((s.take 1014).length + i) (by omega)
      rwa [← Nat.add_assoc] at this)
    (fun p => by
      have h1 : dotTrunc.length = 6 := rfl
      have := hdl p
      omega)
  refine ⟨m1.write (fn + (s.take 1014).length) (dotTrunc ++ [0#8]), ?_, C03_strcat_string hstr (by decide), fun p hp => ?_⟩
  · unfold truncNameMem
    rw [show ((1014 : Int)) = ((1014 : Nat) : Int) from rfl, e1, Res.ok_bind]
    dsimp only
    rw [e2]
    rfl
  · have h1 : (dotTrunc ++ [0#8]).length = 7 := rfl
    rw [write_outside _ _ _ _ (by rw [h1]; omega), hout p (by omega)]

/-! ### what goes wrong -/

/-- A file with one loaded segment of `size` bytes from the beginning on: ELF header, program header, and the program. -/
def truncElf (size : Nat) : List Byte := elfHdr 0 size ++ [1#8, 2#8, 3#8]

/-- The names of the files, and their contents. -/
def oneFile (a f : List Byte) : Files := fun n => if n = a then some f else none

theorem truncElf_file {size : Nat} (h : size = 64 ∨ size = 122 ∨ size = 200) : ElfFile (truncElf size) ∧ (∀ i, ¬ ElfDynamic (truncElf size) i) ∧ ElfLast (truncElf size) size ∧
    elfPhOff (truncElf size) = 64 ∧ elfPhNum (truncElf size) = 1 ∧ (truncElf size).length = 123 ∧ elfLayout (truncElf size) = elf64 := by
  have hl : elfLayout (truncElf size) = elf64 := by rcases h with rfl | rfl | rfl <;> exact if_pos (by decide +kernel)
  have e1 : elfPhOff (truncElf size) = 64 := by unfold elfPhOff; rw [hl]; rcases h with rfl | rfl | rfl <;> decide +kernel
  have e2 : elfPhNum (truncElf size) = 1 := by unfold elfPhNum; rw [hl]; rcases h with rfl | rfl | rfl <;> decide +kernel
  have e3 : elfType (truncElf size) 0 = 1 := by unfold elfType elfPhAt; rw [e1, hl]; rcases h with rfl | rfl | rfl <;> decide +kernel
  have e4 : elfEnd (truncElf size) 0 = size := by unfold elfEnd elfPhAt; rw [e1, hl]; rcases h with rfl | rfl | rfl <;> decide +kernel
  have e5 : (truncElf size).length = 123 := by unfold truncElf; rw [List.length_append, elfHdr_length]; rfl
  refine ⟨⟨?_, ?_, ?_⟩, fun i hi => ?_, ⟨⟨0, ⟨by omega, e3⟩, e4⟩, fun i hi => ?_⟩, e1, e2, e5, hl⟩
  · rcases h with rfl | rfl | rfl <;> decide +kernel
  · rw [hl, e5]; decide
  · rw [hl, e5, e1, e2]; decide
  · have h0 : i = 0 := by have := hi.1; omega
    subst h0
    have := hi.2
    omega
  · have h0 : i = 0 := by have := hi.1; omega
    subst h0
    omega

/-- "a" is cut behind its segment of 122 bytes; the last byte is gone. -/
example : ∃ fs' out, truncMain (oneFile [97#8] (truncElf 122)) true [[97#8]] = .ok (fs', 0) ∧ fs' [97#8, 46#8, 116#8, 114#8, 117#8, 110#8, 99#8] = some out ∧ out.length = 122 ∧
    fs' [97#8] = some (truncElf 122) := by
  obtain ⟨h1, h2, h3, h4, h5, h6, h7⟩ := truncElf_file (size := 122) (.inr (.inl rfl))
  obtain ⟨fs', out, g1, g2, g3, g4, _⟩ := C108_trunc_partial (a := [97#8]) (fs := oneFile [97#8] (truncElf 122)) h1 rfl h2 h3 (by omega) (by rw [h7]; decide) (by omega)
    (by rw [h6, h7]; decide) (by decide)
  exact ⟨fs', out, g1, g2, g4, g3 _ (by decide)⟩

/-- The same with the name of the source as second argument. -/
example : ∃ fs' out, truncMain (oneFile [97#8] (truncElf 122)) true [[97#8], [97#8]] = .ok (fs', 0) ∧ fs' [97#8] = some out ∧ out.length = 122 := by
  obtain ⟨h1, h2, h3, h4, h5, h6, h7⟩ := truncElf_file (size := 122) (.inr (.inl rfl))
  obtain ⟨fs', out, g1, g2, _, _, g4, _⟩ := C108_rename_partial (a := [97#8]) (d := [97#8]) (fs := oneFile [97#8] (truncElf 122)) h1 rfl h2 h3 (by omega) (by rw [h7]; decide) (by omega)
    (by rw [h6, h7]; decide) (by decide) (by decide)
  exact ⟨fs', out, g1, g2, g4⟩

/-- C108: a table of program headers behind the last loaded segment is cut off, so that the new file can not be executed: here the table is at position 64 and the new
file has 64 bytes. -/
theorem C108_table_refuted : ¬ C108_trunc_full := by
  intro h
  obtain ⟨h1, h2, h3, h4, h5, h6, h7⟩ := truncElf_file (size := 64) (.inl rfl)
  obtain ⟨fs', out, g1, g2, _, g4, _⟩ := C108_trunc_partial (a := [97#8]) (fs := oneFile [97#8] (truncElf 64)) h1 rfl h2 h3 (by omega) (by rw [h7]; decide) (by omega)
    (by rw [h6, h7]; decide) (by decide)
  obtain ⟨fs'', out', k1, k2, _, k4, _⟩ := h (oneFile [97#8] (truncElf 64)) [97#8] (truncElf 64) h1 rfl h2 (fun i hi => by have := h3.2 i hi; omega)
  rw [g1] at k1
  have e := congrArg Prod.fst (Res.ok.inj k1)
  dsimp only at e
  rw [← e, g2] at k2
  cases k2
  rw [h4, h5, h7, g4] at k4
  exact absurd k4 (by decide)

/-- C108, full claim: without a second argument the source is not changed. -/
def C108_source_full : Prop := ∀ (fs fs' : Files) (can : Bool) (a : List Byte) (st : Int), truncMain fs can [a] = .ok (fs', st) → fs' a = fs a

/-- C108: a source whose name is 1014 characters and ".trunc" is overwritten: all but the ELF header is lost. -/
theorem C108_source_refuted : ¬ C108_source_full := by
  intro h
  obtain ⟨h1, h2, h3, h4, h5, h6, h7⟩ := truncElf_file (size := 122) (.inr (.inl rfl))
  generalize ha : List.replicate 1014 97#8 ++ dotTrunc = a at *
  have hname : a.take 1014 ++ dotTrunc = a := by
    rw [← ha, List.take_append_of_le_length (by rw [List.length_replicate]; omega), List.take_of_length_le (by rw [List.length_replicate]; omega)]
  have hfs : oneFile a (truncElf 122) a = some (truncElf 122) := if_pos rfl
  obtain ⟨k, hk, hsz, _, heq⟩ := truncOne_eq h1 hfs true
  rw [hname] at heq
  have hd := truncHdr_spec hk h1
  have hke : k.eh = 64 := by rw [hk.eh, h7]; rfl
  rw [h7] at hsz
  have hlt : ∀ i, ElfLoads (truncElf 122) i → elfEnd (truncElf 122) i < k.size := fun i hi => by
    have := h3.2 i hi
    have e : elf64.addr = 8 := rfl
    rw [hsz, e]
    omega
  obtain ⟨len, e1, _, g2, g3⟩ := truncScan_static hk h1 h2 hlt (elfPhNum (truncElf 122)) 0 [] 0 (by omega)
  have hlen : len = 122 := by
    obtain ⟨⟨i, hi, hie⟩, h5⟩ := h3
    have h6 := g2 i (Nat.zero_le _) hi
    rcases g3 with g3 | ⟨j, hj, g3⟩
    · omega
    · have := h5 j hj; omega
  subst hlen
  have hsz' : k.size = 18446744073709551616 := by rw [hsz]; decide
  have hrun : truncMain (oneFile a (truncElf 122)) true [a] = .ok ((oneFile a (truncElf 122)).set a (some (truncHdr k (truncElf 122))), k.eof) := by
    show truncOne _ true a = _
    rw [heq, truncFile_eq hk h1 (by omega), e1, Res.bind]
    simp only [Bool.true_eq_false, if_false]
    rw [hke, hsz', truncCopy]
    rw [dif_neg (by omega)]
    dsimp only
    rw [dif_pos]
    rw [Files.set_same, Option.getD_some]
    unfold readAt
    rw [List.drop_of_length_le (by rw [hd.1]; omega)]
    rfl
  have := h _ _ _ _ _ hrun
  rw [Files.set_same, hfs] at this
  have := congrArg List.length (Option.some.inj this)
  rw [hd.1, h6] at this
  omega

/-- C108, full claim: the outcome does not depend on anything but the files and the arguments. -/
def C108_defined_full : Prop := ∀ (fs : Files) (can : Bool) (a : List Byte), ∃ r, truncMain fs can [a] = .ok r

/-- C108: a file that consists of the four bytes of the mark is taken for an ELF file; fields that were never read decide what happens. -/
theorem C108_defined_refuted : ¬ C108_defined_full := by
  intro h
  obtain ⟨r, hr⟩ := h (oneFile [97#8] [127#8, 69#8, 76#8, 70#8]) true [97#8]
  have : truncMain (oneFile [97#8] [127#8, 69#8, 76#8, 70#8]) true [[97#8]] = .ub := rfl
  rw [this] at hr
  cases hr

/-- C108 (partial: the headers are in the file, and the table begins in the first two gigabytes): the outcome is defined. -/
theorem C108_defined_partial {fs : Files} {a f : List Byte} (hf : ElfFile f) (hfs : fs a = some f) (hp : elfPhOff f < 2147483648) (can : Bool) :
    ∃ r, truncMain fs can [a] = .ok r := by
  obtain ⟨k, hk, _, _, heq⟩ := truncOne_eq hf hfs can
  show ∃ r, truncOne fs can a = .ok r
  rw [heq, truncFile_eq hk hf hp]
  obtain ⟨r, e⟩ := truncScan_ok hk hf (elfPhNum f) 0 [] 0 (by omega)
  rw [e, Res.bind]
  cases r with
  | none => exact ⟨_, rfl⟩
  | some len =>
    dsimp only
    split <;> exact ⟨_, rfl⟩

/-- A file that ends too early: all of it is copied, and the program fails. -/
example : ∃ fs' out, truncMain (oneFile [97#8] (truncElf 200)) true [[97#8]] = .ok (fs', 2) ∧ fs' [97#8, 46#8, 116#8, 114#8, 117#8, 110#8, 99#8] = some out ∧ out.length = 123 := by
  obtain ⟨h1, h2, h3, h4, h5, h6, h7⟩ := truncElf_file (size := 200) (.inr (.inr rfl))
  obtain ⟨fs', out, g1, g2, _, g4, _⟩ := C108_damaged_partial (a := [97#8]) (fs := oneFile [97#8] (truncElf 200)) h1 rfl h2 h3 (by omega) (by omega) (by rw [h7]; decide) (by decide)
  rw [if_pos (by decide +kernel)] at g1
  exact ⟨fs', out, g1, g2, by omega⟩

/-- A file without loaded segments: the header says that there is a program header, which is a note. -/
example : let f := patch (truncElf 122) 64 [4#8]
    ∃ fs' out, truncMain (oneFile [97#8] f) true [[97#8]] = .ok (fs', 2) ∧ fs' [97#8, 46#8, 116#8, 114#8, 117#8, 110#8, 99#8] = some out ∧ out.length = 123 := by
  intro f
  have hl : elfLayout f = elf64 := if_pos (by decide +kernel)
  have e1 : elfPhOff f = 64 := by unfold elfPhOff; rw [hl]; decide +kernel
  have e2 : elfPhNum f = 1 := by unfold elfPhNum; rw [hl]; decide +kernel
  have e3 : elfType f 0 = 4 := by unfold elfType elfPhAt; rw [e1, hl]; decide +kernel
  have e5 : f.length = 123 := by decide +kernel
  have h0 : ∀ i, i < elfPhNum f → elfType f i = 4 := fun i hi => by
    have : i = 0 := by omega
    subst this
    exact e3
  obtain ⟨fs', out, g1, g2, _, g4, _⟩ := C108_empty_partial (a := [97#8]) (fs := oneFile [97#8] f) (f := f) ⟨by decide +kernel, by rw [hl, e5]; decide, by rw [hl, e1, e2, e5]; decide⟩ (if_pos rfl)
    (fun i hi => by have := h0 i hi.1; have := hi.2; omega) (fun i hi => by have := h0 i hi.1; have := hi.2; omega) (by omega) (by rw [hl, e5]; decide) (by decide)
  rw [if_pos (by decide +kernel)] at g1
  exact ⟨fs', out, g1, g2, by omega⟩

/-- A file with a segment for the dynamic linker. -/
def truncDyn : List Byte := patch (truncElf 122) 64 [2#8]

example : truncMain (oneFile [97#8] truncDyn) true [[97#8]] = .ok (oneFile [97#8] truncDyn, 3) := by
  have hl : elfLayout truncDyn = elf64 := if_pos (by decide +kernel)
  have e1 : elfPhOff truncDyn = 64 := by unfold elfPhOff; rw [hl]; decide +kernel
  have e2 : elfPhNum truncDyn = 1 := by unfold elfPhNum; rw [hl]; decide +kernel
  have e3 : elfType truncDyn 0 = 2 := by unfold elfType elfPhAt; rw [e1, hl]; decide +kernel
  exact C108_dynamic (f := truncDyn) (i := 0) ⟨by decide +kernel, by rw [hl]; decide +kernel, by rw [hl, e1, e2]; decide +kernel⟩ (if_pos rfl) ⟨by omega, .inl e3⟩ (by omega) true

example : ∃ st, truncMain (oneFile [97#8] [35#8, 33#8, 47#8]) true [[97#8]] = .ok (oneFile [97#8] [35#8, 33#8, 47#8], st) ∧ st ≠ 0 :=
  C108_other (fun f hf => by cases hf; decide) true

/-- The name of the new file for "ab". -/
example : let m := objects [(16, [97#8, 98#8, 0#8]), (32, dotTrunc ++ [0#8]), (64, List.replicate 1024 0#8)]
    ∃ m', truncNameMem m 64 16 32 = .ok m' ∧ m'.IsStr 64 [97#8, 98#8, 46#8, 116#8, 114#8, 117#8, 110#8, 99#8] := by
  intro m
  have hz : ∀ i < 1024, m (64 + i) = some 0#8 := by
    intro i hi
    have h1 : ([97#8, 98#8, 0#8] : List Byte)[64 + i - 16]? = none := List.getElem?_eq_none (by simp; omega)
    have h2 : (dotTrunc ++ [0#8])[64 + i - 32]? = none := List.getElem?_eq_none (by rw [show (dotTrunc ++ [0#8]).length = 7 from rfl]; omega)
    have h3 : (List.replicate 1024 (0#8 : Byte))[64 + i - 64]? = some 0#8 := by rw [List.getElem?_replicate, if_pos (by omega)]
    show List.findSome? _ [_, _, _] = _
    rw [List.findSome?_cons, if_pos (show 16 ≤ 64 + i by omega), h1]
    dsimp only
    rw [List.findSome?_cons, if_pos (show 32 ≤ 64 + i by omega), h2]
    dsimp only
    rw [List.findSome?_cons, if_pos (show 64 ≤ 64 + i by omega), h3]
  obtain ⟨m', h1, h2, _⟩ := C108_name (m := m) (fn := 64) (a := 16) (lit := 32) (s := [97#8, 98#8]) ⟨by decide, by decide⟩ ⟨by decide, by decide⟩ (by decide) hz
    (by intro p; simp; omega) (by intro p; omega)
  exact ⟨m', h1, h2⟩

end Minilib

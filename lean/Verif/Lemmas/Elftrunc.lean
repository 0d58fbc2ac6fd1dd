import Verif.Model.Elftrunc
import Verif.Spec.Elftrunc
import Verif.Lemmas.Shrinkelf
/-
Lemmas for C108 (elftrunc).
-/

set_option autoImplicit false

namespace Minilib
open Spec

/-- The struct sizes of the tool are those of the specification. -/
structure KindOf (k : TruncKind) (l : ElfLayout) : Prop where
  eh : k.eh = l.ehdr
  ph : k.ph = l.phdr
  w : k.w = l.addr
  phoff : k.phoff = l.phoff
  phnum : k.phnum = l.phnum
  shoff : k.shoff = l.shoff
  shnum : k.shnum = l.shnum
  shstr : k.shstr = l.shstrndx
  pOff : k.pOff = l.offset
  pSize : k.pSize = l.filesz
  ph4 : 4 ≤ k.ph
  pOffIn : k.pOff + k.w ≤ k.ph
  pSizeIn : k.pSize + k.w ≤ k.ph
  phoffIn : k.phoff + k.w ≤ k.eh
  phnumIn : k.phnum + 2 ≤ k.eh
  shoffIn : k.shoff + k.w ≤ k.eh
  shnumIn : k.shnum + 2 ≤ k.eh
  shstrIn : k.shstr + 2 ≤ k.eh

theorem kindOf32 : KindOf kind32 elf32 := by constructor <;> decide
theorem kindOf64 : KindOf kind64 elf64 := by constructor <;> decide

theorem known_eq {s : List Byte} {off n : Nat} (h : off + n ≤ s.length) : known s off n = .ok (num s off n) := by
  unfold known
  rw [if_pos h, field_num]
  rfl

theorem readAt_length {f : List Byte} {pos n : Nat} (h : pos + n ≤ f.length) : (readAt f pos n).length = n := by
  unfold readAt
  rw [List.length_take, List.length_drop]
  omega

theorem num_readAt {f : List Byte} {pos n a w : Nat} (h : a + w ≤ n) : num (readAt f pos n) a w = num f (pos + a) w := by
  unfold readAt
  rw [num_take _ _ _ _ h, num_drop]

/-- One program header. -/
theorem truncScan_step {k : TruncKind} {f : List Byte} (hk : KindOf k (elfLayout f)) {i c : Nat} (hin : elfPhAt f (i + 1) ≤ f.length) (ph : List Byte) (len : Nat) :
    ∃ ph', truncScan k f (c + 1) (elfPhAt f i) ph len =
      if elfType f i = 2 ∨ elfType f i = 3 then .ok none
      else if elfType f i = 1 then truncScan k f c (elfPhAt f (i + 1)) ph' (if len < elfEnd f i % k.size then elfEnd f i % k.size else len)
      else truncScan k f c (elfPhAt f (i + 1)) ph' len := by
  have hnext : elfPhAt f (i + 1) = elfPhAt f i + k.ph := by
    unfold elfPhAt
    rw [hk.ph, Nat.mul_add]
    omega
  have hlen : (readAt f (elfPhAt f i) k.ph).length = k.ph := readAt_length (by omega)
  have h4 := hk.ph4
  have hne : readAt f (elfPhAt f i) k.ph ≠ [] := by
    intro e
    rw [e] at hlen
    simp at hlen
    omega
  have hn : ∀ a n, a + n ≤ k.ph → num (readAt f (elfPhAt f i) k.ph ++ ph.drop k.ph) a n = num f (elfPhAt f i + a) n := by
    intro a n h
    rw [← num_readAt h]
    exact num_congr n a a (fun j hj => by rw [byteAt_append, if_pos (by omega)])
  refine ⟨readAt f (elfPhAt f i) k.ph ++ ph.drop k.ph, ?_⟩
  rw [truncScan]
  dsimp only
  rw [if_neg hne, hlen, known_eq (by rw [List.length_append]; omega), Res.ok_bind, hn 0 4 (by omega), Nat.add_zero]
  show (if elfType f i = 2 ∨ elfType f i = 3 then _ else _) = _
  split
  · rfl
  · show (if elfType f i = 1 then _ else _) = _
    split
    · have h1 := hk.pOffIn
      have h2 := hk.pSizeIn
      rw [known_eq (by rw [List.length_append]; omega), Res.ok_bind, known_eq (by rw [List.length_append]; omega), Res.ok_bind,
        hn _ _ h1, hn _ _ h2, hk.pOff, hk.pSize, hk.w, hnext]
      rfl
    · rw [hnext]

/-- All program headers, when none is for the dynamic linker. -/
theorem truncScan_static {k : TruncKind} {f : List Byte} (hk : KindOf k (elfLayout f)) (hf : ElfFile f) (hs : ∀ i, ¬ ElfDynamic f i)
    (hz : ∀ i, ElfLoads f i → elfEnd f i < k.size) :
    ∀ (c i : Nat) (ph : List Byte) (len : Nat), i + c = elfPhNum f →
      ∃ len', truncScan k f c (elfPhAt f i) ph len = .ok (some len') ∧ len ≤ len' ∧ (∀ j, i ≤ j → ElfLoads f j → elfEnd f j ≤ len') ∧
        (len' = len ∨ ∃ j, ElfLoads f j ∧ elfEnd f j = len')
  | 0, i, ph, len, h => by
    refine ⟨len, rfl, Nat.le_refl _, fun j hj hl => ?_, .inl rfl⟩
    have := hl.1
    omega
  | c + 1, i, ph, len, h => by
    have hin : elfPhAt f (i + 1) ≤ f.length := by
      have h1 := hf.table
      have h2 : (elfLayout f).phdr * (i + 1) ≤ (elfLayout f).phdr * elfPhNum f := Nat.mul_le_mul (Nat.le_refl _) (by omega)
      unfold elfPhAt
      omega
    obtain ⟨ph', e⟩ := truncScan_step (c := c) hk hin ph len
    have hd : ¬ (elfType f i = 2 ∨ elfType f i = 3) := fun h' => hs i ⟨by omega, h'⟩
    rw [e, if_neg hd]
    by_cases ht : elfType f i = 1
    · have hl : ElfLoads f i := ⟨by omega, ht⟩
      rw [if_pos ht, Nat.mod_eq_of_lt (hz i hl)]
      obtain ⟨len', e1, h1, h2, h3⟩ := truncScan_static hk hf hs hz c (i + 1) ph' (if len < elfEnd f i then elfEnd f i else len) (by omega)
      have hm : len ≤ len' ∧ elfEnd f i ≤ len' := by split at h1 <;> omega
      refine ⟨len', e1, hm.1, fun j hj hlj => ?_, ?_⟩
      · rcases Nat.eq_or_lt_of_le hj with rfl | hj
        · exact hm.2
        · exact h2 j hj hlj
      · rcases h3 with h3 | h3
        · by_cases hlt : len < elfEnd f i
          · rw [if_pos hlt] at h3
            exact .inr ⟨i, hl, h3.symm⟩
          · rw [if_neg hlt] at h3
            exact .inl h3
        · exact .inr h3
    · rw [if_neg ht]
      obtain ⟨len', e1, h1, h2, h3⟩ := truncScan_static hk hf hs hz c (i + 1) ph' len (by omega)
      refine ⟨len', e1, h1, fun j hj hlj => ?_, h3⟩
      rcases Nat.eq_or_lt_of_le hj with rfl | hj
      · exact absurd hlj.2 ht
      · exact h2 j hj hlj

/-- All program headers, when one is for the dynamic linker. -/
theorem truncScan_dynamic {k : TruncKind} {f : List Byte} (hk : KindOf k (elfLayout f)) (hf : ElfFile f) :
    ∀ (c i : Nat) (ph : List Byte) (len : Nat), i + c = elfPhNum f → (∃ j, i ≤ j ∧ ElfDynamic f j) → truncScan k f c (elfPhAt f i) ph len = .ok none
  | 0, i, ph, len, h, ⟨j, h1, h2⟩ => by
    have := h2.1
    omega
  | c + 1, i, ph, len, h, ⟨j, h1, h2⟩ => by
    have hin : elfPhAt f (i + 1) ≤ f.length := by
      have h1 := hf.table
      have h2 : (elfLayout f).phdr * (i + 1) ≤ (elfLayout f).phdr * elfPhNum f := Nat.mul_le_mul (Nat.le_refl _) (by omega)
      unfold elfPhAt
      omega
    obtain ⟨ph', e⟩ := truncScan_step (c := c) hk hin ph len
    rw [e]
    by_cases hd : elfType f i = 2 ∨ elfType f i = 3
    · rw [if_pos hd]
    · rw [if_neg hd]
      have hj : i + 1 ≤ j := by
        rcases Nat.eq_or_lt_of_le h1 with rfl | h1
        · exact absurd h2.2 hd
        · exact h1
      split
      · exact truncScan_dynamic hk hf c (i + 1) _ _ (by omega) ⟨j, hj, h2⟩
      · exact truncScan_dynamic hk hf c (i + 1) _ _ (by omega) ⟨j, hj, h2⟩

theorem writeAt_end (g b : List Byte) : writeAt g g.length b = g ++ b := by
  unfold writeAt
  simp

theorem Files.set_same (fs : Files) (n : List Byte) (c : Option (List Byte)) : (fs.set n c) n = c := if_pos rfl
theorem Files.set_other (fs : Files) {n x : List Byte} (c : Option (List Byte)) (h : x ≠ n) : (fs.set n c) x = fs x := if_neg h

/-- The copying loop, when the two files are different and the source is long enough. -/
theorem truncCopy_enough (k : TruncKind) {a out f : List Byte} (hne : a ≠ out) : ∀ (N : Nat) (fs : Files) (g : List Byte) (len : Nat), len ≤ N →
    fs a = some f → fs out = some g → g.length + len ≤ f.length →
    truncCopy k fs a out g.length g.length len = (fs.set out (some (g ++ (f.drop g.length).take len)), 0)
  | N, fs, g, len, hN, ha, ho, hl => by
    rw [truncCopy]
    split
    · rename_i h0
      subst h0
      rw [List.take_zero, List.append_nil]
      congr 1
      funext x
      unfold Files.set
      split
      · rename_i h
        rw [h, ho]
      · rfl
    · rename_i h0
      dsimp only
      rw [ha, ho, Option.getD_some, Option.getD_some]
      have hlen : (readAt f g.length 4096).length = min 4096 (f.length - g.length) := by
        unfold readAt
        rw [List.length_take, List.length_drop]
      have hnb : readAt f g.length 4096 ≠ [] := by
        intro e
        rw [e, List.length_nil] at hlen
        omega
      rw [dif_neg hnb, writeAt_end]
      have htake : ∀ n, n ≤ (readAt f g.length 4096).length → (readAt f g.length 4096).take n = (f.drop g.length).take n := by
        intro n hn
        unfold readAt
        rw [List.take_take]
        congr 1
        omega
      by_cases hlt : len < (readAt f g.length 4096).length
      · rw [if_pos hlt, Nat.sub_self, truncCopy, dif_pos rfl, htake _ (by omega)]
      · rw [if_neg hlt]
        cases N with
        | zero => omega
        | succ N =>
          generalize hn : (readAt f g.length 4096).length = n at *
          have e1 : (g ++ (readAt f g.length 4096).take n).length = g.length + n := by
            rw [List.length_append, List.length_take, hn, Nat.min_self]
          have := truncCopy_enough k hne N (fs.set out (some (g ++ (readAt f g.length 4096).take n))) (g ++ (readAt f g.length 4096).take n) (len - n) (by omega)
            (by rw [Files.set_other _ _ hne, ha]) (Files.set_same _ _ _) (by rw [e1]; omega)
          rw [e1] at this
          rw [this]
          congr 1
          funext x
          unfold Files.set
          split
          · rw [htake n (Nat.le_refl _), List.append_assoc, ← List.drop_drop, ← List.take_add]
            congr 4
            omega
          · rfl

/-- Only `out` is written. -/
theorem truncCopy_others (k : TruncKind) {a out : List Byte} : ∀ (N : Nat) (fs : Files) (i o len : Nat), len ≤ N →
    (∀ x, x ≠ out → (truncCopy k fs a out i o len).1 x = fs x) ∧ ((truncCopy k fs a out i o len).2 = 0 ∨ (truncCopy k fs a out i o len).2 = k.eof)
  | N, fs, i, o, len, hN => by
    rw [truncCopy]
    split
    · exact ⟨fun _ _ => rfl, .inl rfl⟩
    · dsimp only
      split
      · exact ⟨fun _ _ => rfl, .inr rfl⟩
      · rename_i h0 hb
        have : 0 < (readAt ((fs a).getD []) i 4096).length := List.length_pos_iff.2 hb
        cases N with
        | zero => omega
        | succ N =>
          obtain ⟨h1, h2⟩ := truncCopy_others k (a := a) (out := out) N (fs.set out (some (writeAt ((fs out).getD []) o ((readAt ((fs a).getD []) i 4096).take (if len < (readAt ((fs a).getD []) i 4096).length then len else (readAt ((fs a).getD []) i 4096).length)))))
            (i + (readAt ((fs a).getD []) i 4096).length) (o + (if len < (readAt ((fs a).getD []) i 4096).length then len else (readAt ((fs a).getD []) i 4096).length))
            (len - (if len < (readAt ((fs a).getD []) i 4096).length then len else (readAt ((fs a).getD []) i 4096).length)) (by split <;> omega)
          exact ⟨fun x hx => by rw [h1 x hx, Files.set_other _ _ hx], h2⟩

/-- The copying loop, when the source ends before `len` bytes. -/
theorem truncCopy_short (k : TruncKind) {a out f : List Byte} (hne : a ≠ out) : ∀ (N : Nat) (fs : Files) (g : List Byte) (len : Nat), len ≤ N →
    fs a = some f → fs out = some g → g.length ≤ f.length → f.length < g.length + len →
    truncCopy k fs a out g.length g.length len = (fs.set out (some (g ++ f.drop g.length)), k.eof)
  | N, fs, g, len, hN, ha, ho, hg, hl => by
    rw [truncCopy, dif_neg (by omega)]
    dsimp only
    rw [ha, ho, Option.getD_some, Option.getD_some]
    have hlen : (readAt f g.length 4096).length = min 4096 (f.length - g.length) := by
      unfold readAt
      rw [List.length_take, List.length_drop]
    split
    · rename_i hb
      rw [hb, List.length_nil] at hlen
      rw [List.drop_of_length_le (by omega), List.append_nil]
      congr 1
      funext x
      unfold Files.set
      split
      · rename_i h
        rw [h, ho]
      · rfl
    · rename_i hb
      have : 0 < (readAt f g.length 4096).length := List.length_pos_iff.2 hb
      rw [writeAt_end]
      generalize hn : (readAt f g.length 4096).length = n at *
      rw [if_neg (by omega)]
      have ht : (readAt f g.length 4096).take n = (f.drop g.length).take n := by
        unfold readAt
        rw [List.take_take]
        congr 1
        omega
      rw [ht]
      cases N with
      | zero => omega
      | succ N =>
        have e1 : (g ++ (f.drop g.length).take n).length = g.length + n := by
          rw [List.length_append, List.length_take, List.length_drop]
          omega
        have := truncCopy_short k hne N (fs.set out (some (g ++ (f.drop g.length).take n))) (g ++ (f.drop g.length).take n) (len - n) (by omega)
          (by rw [Files.set_other _ _ hne, ha]) (Files.set_same _ _ _) (by rw [e1]; omega) (by rw [e1]; omega)
        rw [e1] at this
        rw [this]
        congr 1
        funext x
        unfold Files.set
        split
        · rw [List.append_assoc, ← List.drop_drop, List.take_append_drop]
        · rfl

/-- All program headers, whatever they are. -/
theorem truncScan_ok {k : TruncKind} {f : List Byte} (hk : KindOf k (elfLayout f)) (hf : ElfFile f) :
    ∀ (c i : Nat) (ph : List Byte) (len : Nat), i + c = elfPhNum f → ∃ r, truncScan k f c (elfPhAt f i) ph len = .ok r
  | 0, i, ph, len, h => ⟨_, rfl⟩
  | c + 1, i, ph, len, h => by
    have hin : elfPhAt f (i + 1) ≤ f.length := by
      have h1 := hf.table
      have h2 : (elfLayout f).phdr * (i + 1) ≤ (elfLayout f).phdr * elfPhNum f := Nat.mul_le_mul (Nat.le_refl _) (by omega)
      unfold elfPhAt
      omega
    obtain ⟨ph', e⟩ := truncScan_step (c := c) hk hin ph len
    rw [e]
    split
    · exact ⟨_, rfl⟩
    · split
      · exact truncScan_ok hk hf c (i + 1) _ _ (by omega)
      · exact truncScan_ok hk hf c (i + 1) _ _ (by omega)

/-- The new header. -/
def truncHdr (k : TruncKind) (f : List Byte) : List Byte :=
  setField (setField (setField (f.take k.eh) k.shoff k.w 0) k.shnum 2 0) k.shstr 2 0

theorem byteAt_leZero : ∀ n k, byteAt (leBytes n 0) k = 0#8
  | 0, _ => rfl
  | _ + 1, 0 => rfl
  | n + 1, k + 1 => byteAt_leZero n k

theorem truncHdr_spec {k : TruncKind} {f : List Byte} (hk : KindOf k (elfLayout f)) (hf : ElfFile f) :
    (truncHdr k f).length = k.eh ∧ ∀ x < k.eh, (ElfSections f x → byteAt (truncHdr k f) x = 0#8) ∧ (¬ ElfSections f x → byteAt (truncHdr k f) x = byteAt f x) := by
  have h0 : (f.take k.eh).length = k.eh := by
    have := hf.long
    rw [List.length_take, hk.eh]
    omega
  have h1 := hk.shoffIn
  have h2 := hk.shnumIn
  have h3 := hk.shstrIn
  have l1 := setField_length (s := f.take k.eh) (off := k.shoff) (n := k.w) (v := 0) (by omega)
  have l2 := setField_length (s := setField (f.take k.eh) k.shoff k.w 0) (off := k.shnum) (n := 2) (v := 0) (by omega)
  have l3 := setField_length (s := setField (setField (f.take k.eh) k.shoff k.w 0) k.shnum 2 0) (off := k.shstr) (n := 2) (v := 0) (by omega)
  refine ⟨by unfold truncHdr; omega, fun x hx => ?_⟩
  unfold truncHdr ElfSections
  rw [byteAt_setField (by omega), byteAt_leZero, byteAt_setField (by omega), byteAt_leZero, byteAt_setField (by omega), byteAt_leZero, byteAt_take _ _ _ hx,
    ← hk.shoff, ← hk.shnum, ← hk.shstr, ← hk.w]
  constructor
  · intro h
    split
    · rfl
    · split
      · rfl
      · rw [if_pos (by omega)]
  · intro h
    rw [if_neg (by omega), if_neg (by omega), if_neg (by omega)]

/-- What is left of `truncFile` for a file whose headers are there. -/
theorem truncFile_eq {k : TruncKind} {f : List Byte} (hk : KindOf k (elfLayout f)) (hf : ElfFile f) (hp : elfPhOff f < 2147483648) (fs : Files) (can : Bool)
    (a out : List Byte) :
    truncFile k fs can a out f = (truncScan k f (elfPhNum f) (elfPhAt f 0) [] 0).bind (fun r => match r with
      | none => .ok (fs, 3)
      | some len => if can = false then .ok (fs, 2)
        else .ok (truncCopy k (fs.set out (some (truncHdr k f))) a out k.eh k.eh ((len + k.size - k.eh) % k.size))) := by
  have hle : k.eh ≤ f.length := by rw [hk.eh]; exact hf.long
  have hlen : (readAt f 0 k.eh).length = k.eh := readAt_length (by omega)
  have h1 := hk.phoffIn
  have h2 := hk.phnumIn
  have hne : readAt f 0 k.eh ≠ [] := by
    intro e
    rw [e, List.length_nil] at hlen
    omega
  have hno : num (readAt f 0 k.eh) k.phoff k.w = elfPhOff f := by
    rw [num_readAt h1, Nat.zero_add, hk.phoff, hk.w]
    rfl
  have hnn : num (readAt f 0 k.eh) k.phnum 2 = elfPhNum f := by
    rw [num_readAt h2, Nat.zero_add, hk.phnum]
    rfl
  unfold truncFile
  dsimp only
  rw [if_neg hne, known_eq (by omega), Res.ok_bind, hno, seekSet_eq hp, Res.ok_bind, known_eq (by omega), Res.ok_bind, hnn, Option.getD_some, hlen]
  have e0 : elfPhAt f 0 = elfPhOff f := by unfold elfPhAt; omega
  rw [e0]
  have e1 : (setField (setField (setField (readAt f 0 k.eh) k.shoff k.w 0) k.shnum 2 0) k.shstr 2 0).take k.eh = truncHdr k f :=
    List.take_of_length_le (Nat.le_of_eq (truncHdr_spec hk hf).1)
  rw [e1]
  rfl

end Minilib

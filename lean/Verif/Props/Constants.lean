import Verif.Model.Constants
import Verif.Spec.Constants
set_option autoImplicit false
set_option maxRecDepth 20000

/-- The words of a set of flags: one or of all of them. -/
def Spec.orAll (l : List (String × Nat)) : Nat := l.foldr (fun c a => c.2 ||| a) 0

/-- The types with bounds in limits.h and stdint.h: the name of the least value ("" where it is 0 and has no
name), the name of the largest, the width on x86-64 and whether the type is signed. -/
def Spec.boundedTypes : List (String × String × Nat × Bool) :=
  [("CHAR_MIN", "CHAR_MAX", 8, true), ("SCHAR_MIN", "SCHAR_MAX", 8, true), ("", "UCHAR_MAX", 8, false),
   ("SHRT_MIN", "SHRT_MAX", 16, true), ("", "USHRT_MAX", 16, false), ("INT_MIN", "INT_MAX", 32, true),
   ("", "UINT_MAX", 32, false), ("LONG_MIN", "LONG_MAX", 64, true), ("", "ULONG_MAX", 64, false),
   ("LLONG_MIN", "LLONG_MAX", 64, true), ("", "ULLONG_MAX", 64, false), ("INT8_MIN", "INT8_MAX", 8, true),
   ("INT16_MIN", "INT16_MAX", 16, true), ("INT32_MIN", "INT32_MAX", 32, true),
   ("INT64_MIN", "INT64_MAX", 64, true), ("", "UINT8_MAX", 8, false), ("", "UINT16_MAX", 16, false),
   ("", "UINT32_MAX", 32, false), ("", "UINT64_MAX", 64, false), ("INT_FAST8_MIN", "INT_FAST8_MAX", 8, true),
   ("INT_FAST64_MIN", "INT_FAST64_MAX", 64, true), ("INT_LEAST8_MIN", "INT_LEAST8_MAX", 8, true),
   ("INT_LEAST16_MIN", "INT_LEAST16_MAX", 16, true), ("INT_LEAST32_MIN", "INT_LEAST32_MAX", 32, true),
   ("INT_LEAST64_MIN", "INT_LEAST64_MAX", 64, true), ("", "UINT_FAST8_MAX", 8, false),
   ("", "UINT_FAST64_MAX", 64, false), ("", "UINT_LEAST8_MAX", 8, false), ("", "UINT_LEAST16_MAX", 16, false),
   ("", "UINT_LEAST32_MAX", 32, false), ("", "UINT_LEAST64_MAX", 64, false), ("INTMAX_MIN", "INTMAX_MAX", 64, true),
   ("", "UINTMAX_MAX", 64, false), ("WINT_MIN", "WINT_MAX", 32, false), ("SIG_ATOMIC_MIN", "SIG_ATOMIC_MAX", 32, true)]

/-- The number an object of a type stands for. -/
def Spec.number (sgn : Bool) {w : Nat} (b : BitVec w) : Int := if sgn then b.toInt else b.toNat

namespace Minilib

/-- The names whose values are not the kernel's. -/
def wrongConstants : List String := ["K_CAPSLOCK", "K_NUMLOCK"]

theorem tables_right : (headerTables.zip Spec.Kernel.tables).all
    (fun p => (p.1.filter fun c => !(wrongConstants.contains c.1)).isSublist p.2) = true := by
  decide +kernel

theorem tables_length : headerTables.length = Spec.Kernel.tables.length := by decide +kernel

theorem zip_mem {α β : Type} {a : α} {l : List α} (m : List β) (h : a ∈ l) (hl : l.length = m.length) :
    ∃ b ∈ m, (a, b) ∈ l.zip m := by
  induction l generalizing m with
  | nil => simp at h
  | cons x l ih =>
    cases m with
    | nil => simp at hl
    | cons y m =>
      rcases List.mem_cons.1 h with h | h
      · subst h; exact ⟨y, by simp, by simp⟩
      · obtain ⟨b, hb, hz⟩ := ih m h (by simpa using hl)
        exact ⟨b, by simp [hb], by simp [hz]⟩

/-- Full statement: every constant of the headers has the value the kernel gives the name. -/
def C102_values_full : Prop := ∀ t ∈ headerTables, ∀ c ∈ t, Spec.Kernel.Has c.1 c.2

/-- The constants of the headers have the kernel's values, but for the two lock keys of sys/kbd.h. -/
theorem C102_values_partial : ∀ t ∈ headerTables, ∀ c ∈ t, c.1 ∉ ["K_CAPSLOCK", "K_NUMLOCK"] →
    Spec.Kernel.Has c.1 c.2 := by
  intro t ht c hc hn
  obtain ⟨k, hk, hz⟩ := zip_mem Spec.Kernel.tables ht tables_length
  have h := List.all_eq_true.1 tables_right _ hz
  have hs := (List.isSublist_iff_sublist.1 h).subset
  refine ⟨k, hk, hs (List.mem_filter.2 ⟨hc, ?_⟩)⟩
  simpa [wrongConstants] using hn

/-- sys/kbd.h has the two lock flags the wrong way round: a program that sets K_CAPSLOCK locks the digits. -/
theorem C102_values_refuted : ¬ C102_values_full := by
  intro h
  have := h kbdH (by simp [headerTables]) ("K_CAPSLOCK", 2) (by decide +kernel)
  revert this
  unfold Spec.Kernel.Has
  decide +kernel

/-! ### Words of flags -/

/-- What is checked of a word: the flags and masks do not share bits, no flag is empty, the values of a field are
within its mask, everything fits 32 bits. -/
def wordOk (w : FlagWord) : Bool :=
  let parts := w.flags.map (·.2) ++ w.fields.map (·.1.2)
  decide (parts.Pairwise fun a b => a &&& b = 0) && w.flags.all (fun c => c.2 ≠ 0) &&
    w.fields.all (fun f => f.2.all fun v => v.2 &&& f.1.2 = v.2) && parts.all (fun p => p < 2 ^ 32)

/-- The names of a word and their values, in the order of the header. -/
def wordNames (w : FlagWord) : List (String × Nat) :=
  w.flags ++ w.fields.flatMap fun f => f.1 :: f.2

theorem words_ok : flagWords.all wordOk = true := by decide +kernel

theorem words_plain : flagWords.all (fun w => (wordNames w).all fun c =>
    !(["K_CAPSLOCK", "K_NUMLOCK"].contains c.1)) = true := by decide +kernel

theorem words_tables : ∀ w ∈ flagWords, w.header ∈ headerTables := by
  simp [flagWords, headerTables, openWord, modeWord, mapWord, protWord, cloneWord, waitWord, iflagWord, oflagWord, cflagWord, lflagWord, inotifyWord, mountWord, atWord, dnWord, pollWord, epollWord, saWord, ifWord, routeWord, msgWord, sockWord, seccompWord, ledWord]

theorem words_header : flagWords.all (fun w => (wordNames w).all fun c =>
    w.header.any fun k => k.2 == (c.2 : Int) && k.1 == c.1) = true := by decide +kernel

theorem or_and (x y z : Nat) : (x ||| y) &&& z = (x &&& z) ||| (y &&& z) := by
  apply Nat.eq_of_testBit_eq; intro i
  simp only [Nat.testBit_and, Nat.testBit_or, Bool.and_or_distrib_right]

theorem orAll_disj (l : List (String × Nat)) (k : Nat) (h : ∀ c ∈ l, c.2 &&& k = 0) : Spec.orAll l &&& k = 0 := by
  induction l with
  | nil => simp [Spec.orAll]
  | cons c l ih =>
    have := ih fun d hd => h d (by simp [hd])
    simp only [Spec.orAll, List.foldr_cons] at this ⊢
    rw [or_and, h c (by simp), this]; rfl

theorem orAll_has (l : List (String × Nat)) (c : String × Nat) (h : c ∈ l) : Spec.orAll l &&& c.2 = c.2 := by
  induction l with
  | nil => simp at h
  | cons d l ih =>
    simp only [Spec.orAll, List.foldr_cons]
    rw [or_and]
    apply Nat.eq_of_testBit_eq; intro i
    rcases List.mem_cons.1 h with h | h
    · subst h; simp
    · have := congrArg (·.testBit i) (ih h)
      simp only [Spec.orAll, Nat.testBit_and, Nat.testBit_or] at this ⊢
      rw [this]; cases Nat.testBit d.2 i <;> cases Nat.testBit c.2 i <;> rfl

theorem orAll_lt (l : List (String × Nat)) (n : Nat) (h : ∀ c ∈ l, c.2 < 2 ^ n) : Spec.orAll l < 2 ^ n := by
  induction l with
  | nil => simp [Spec.orAll]; exact Nat.two_pow_pos n
  | cons c l ih =>
    simp only [Spec.orAll, List.foldr_cons]
    exact Nat.or_lt_two_pow (h c (by simp)) (ih fun d hd => h d (by simp [hd]))

theorem pairwise_ne {l : List (String × Nat)} (hp : (l.map (·.2)).Pairwise fun a b => a &&& b = 0)
    {a b : String × Nat} (ha : a ∈ l) (hb : b ∈ l) (hne : a ≠ b) : a.2 &&& b.2 = 0 := by
  induction l with
  | nil => simp at ha
  | cons c l ih =>
    simp only [List.map_cons, List.pairwise_cons, List.mem_map] at hp
    rcases List.mem_cons.1 ha with ha1 | ha1 <;> rcases List.mem_cons.1 hb with hb1 | hb1
    · exact absurd (ha1.trans hb1.symm) hne
    · rw [ha1]; exact hp.1 _ ⟨b, hb1, rfl⟩
    · rw [hb1, Nat.and_comm]; exact hp.1 _ ⟨a, ha1, rfl⟩
    · exact ih hp.2 ha1 hb1

abbrev Field := (String × Nat) × List (String × Nat)

/-- The values of the fields, one for each. -/
inductive Picked : List Field → List (String × Nat) → Prop
  | nil : Picked [] []
  | cons (f : Field) (v : String × Nat) (fs : List Field) (vs : List (String × Nat)) (h : v ∈ f.2) (hs : Picked fs vs) :
      Picked (f :: fs) (v :: vs)

theorem picked_from (fs : List Field) (vs : List (String × Nat)) (hv : Picked fs vs) (c : String × Nat)
    (hc : c ∈ vs) : ∃ g ∈ fs, c ∈ g.2 := by
  induction hv with
  | nil => simp at hc
  | cons g u gs us hg _ ih =>
    rcases List.mem_cons.1 hc with h | h
    · subst h; exact ⟨g, by simp, hg⟩
    · obtain ⟨g', h1, h2⟩ := ih h; exact ⟨g', by simp [h1], h2⟩

theorem picked_word (fs : List Field) (vs : List (String × Nat)) (hv : Picked fs vs)
    (hp : (fs.map (·.1.2)).Pairwise fun a b => a &&& b = 0)
    (hin : ∀ f ∈ fs, ∀ v ∈ f.2, v.2 &&& f.1.2 = v.2) (x : Nat) (hx : ∀ f ∈ fs, x &&& f.1.2 = 0) :
    ∀ p ∈ fs.zip vs, p.2 ∈ p.1.2 ∧ (x ||| Spec.orAll vs) &&& p.1.1.2 = p.2.2 := by
  induction hv generalizing x with
  | nil => simp
  | cons f v fs vs h hs ih =>
    simp only [List.map_cons, List.pairwise_cons, List.mem_map] at hp
    have hov : Spec.orAll vs &&& f.1.2 = 0 := by
      refine orAll_disj _ _ ?_
      intro c hc
      obtain ⟨g, hg, hcg⟩ := picked_from _ _ hs c hc
      rw [← hin g (by simp [hg]) c hcg, Nat.and_assoc, Nat.and_comm g.1.2, hp.1 _ ⟨g, hg, rfl⟩, Nat.and_zero]
    have hvm := hin f (by simp) v h
    intro p hp'
    simp only [List.zip_cons_cons, List.mem_cons] at hp'
    rcases hp' with rfl | hp'
    · refine ⟨h, ?_⟩
      simp only [Spec.orAll, List.foldr_cons] at hov ⊢
      rw [or_and, or_and, hx f (by simp), hov, hvm]; simp
    · have := ih hp.2 (fun g hg => hin g (by simp [hg])) (x ||| v.2) ?_ p hp'
      · refine ⟨this.1, ?_⟩
        rw [← this.2]; simp only [Spec.orAll, List.foldr_cons, Nat.or_assoc]
      · intro g hg
        rw [or_and, hx g (by simp [hg]), ← hvm, Nat.and_assoc, hp.1 _ ⟨g, hg, rfl⟩]; simp

theorem picked_lt (fs : List Field) (vs : List (String × Nat)) (hv : Picked fs vs)
    (hin : ∀ f ∈ fs, ∀ v ∈ f.2, v.2 &&& f.1.2 = v.2) (hm : ∀ f ∈ fs, f.1.2 < 2 ^ 32) : ∀ v ∈ vs, v.2 < 2 ^ 32 := by
  induction hv with
  | nil => simp
  | cons f v fs vs h hs ih =>
    intro u hu
    rcases List.mem_cons.1 hu with rfl | hu
    · rw [← hin f (by simp) u h]; exact Nat.lt_of_le_of_lt Nat.and_le_right (hm f (by simp))
    · exact ih (fun g hg => hin g (by simp [hg])) (fun g hg => hm g (by simp [hg])) u hu

/-- The kernel takes out of a word what the program put in: for every set of the flags of a word and every
choice of its fields, the bits the kernel looks at for a name are set exactly if the name is in the set, and the
bits under the mask of a field are the kernel's value of the name chosen.  The word has 32 bits. -/
theorem C102_words : ∀ w ∈ flagWords, ∀ s, (∀ c ∈ s, c ∈ w.flags) → ∀ vs, Picked w.fields vs →
    Spec.orAll s ||| Spec.orAll vs < 2 ^ 32 ∧
    (∀ c ∈ w.flags, (c.1, (c.2 : Int)) ∈ w.header ∧ ∃ k : Nat, Spec.Kernel.Has c.1 k ∧
      ((Spec.orAll s ||| Spec.orAll vs) &&& k ≠ 0 ↔ c ∈ s)) ∧
    (∀ p ∈ w.fields.zip vs, (p.2.1, (p.2.2 : Int)) ∈ w.header ∧ ∃ m k : Nat, Spec.Kernel.Has p.1.1.1 m ∧
      Spec.Kernel.Has p.2.1 k ∧ (Spec.orAll s ||| Spec.orAll vs) &&& m = k) := by
  intro w hw s hs vs hv
  have hok := List.all_eq_true.1 words_ok w hw
  have hhead := List.all_eq_true.1 (List.all_eq_true.1 words_header w hw)
  have hmemh : ∀ c ∈ wordNames w, (c.1, (c.2 : Int)) ∈ w.header := by
    intro c hc
    obtain ⟨k, hk, h⟩ := List.any_eq_true.1 (hhead c hc)
    simp only [Bool.and_eq_true, beq_iff_eq] at h
    rw [← h.1, ← h.2]; exact hk
  have hright : ∀ c ∈ wordNames w, Spec.Kernel.Has c.1 c.2 := fun c hc =>
    C102_values_partial w.header (words_tables w hw) _ (hmemh c hc) (by
      have := List.all_eq_true.1 (List.all_eq_true.1 words_plain w hw) c hc
      simpa using this)
  simp only [wordOk, Bool.and_eq_true, decide_eq_true_eq, List.all_eq_true, List.mem_append, ne_eq] at hok
  obtain ⟨⟨⟨hp, hne⟩, hin⟩, hlt⟩ := hok
  rw [List.pairwise_append] at hp
  obtain ⟨hpf, hpm, hx⟩ := hp
  have hsx : ∀ f ∈ w.fields, Spec.orAll s &&& f.1.2 = 0 := fun f hf =>
    orAll_disj _ _ fun c hc => hx _ (List.mem_map.2 ⟨c, hs c hc, rfl⟩) _ (List.mem_map.2 ⟨f, hf, rfl⟩)
  have hfield := picked_word w.fields vs hv hpm hin (Spec.orAll s) hsx
  refine ⟨?_, ?_, ?_⟩
  · refine Nat.or_lt_two_pow (orAll_lt _ _ fun c hc => hlt _ (Or.inl (List.mem_map.2 ⟨c, hs c hc, rfl⟩)))
      (orAll_lt _ _ (picked_lt _ _ hv hin fun f hf => hlt _ (Or.inr (List.mem_map.2 ⟨f, hf, rfl⟩))))
  · intro c hc
    have hcn : c ∈ wordNames w := List.mem_append.2 (Or.inl hc)
    refine ⟨hmemh c hcn, c.2, hright c hcn, ?_⟩
    have hv0 : Spec.orAll vs &&& c.2 = 0 := by
      refine orAll_disj _ _ fun u hu => ?_
      obtain ⟨f, hf, huf⟩ := picked_from _ _ hv u hu
      rw [← hin f hf u huf, Nat.and_assoc, Nat.and_comm f.1.2, hx _ (List.mem_map.2 ⟨c, hc, rfl⟩) _ (List.mem_map.2 ⟨f, hf, rfl⟩), Nat.and_zero]
    rw [or_and, hv0, Nat.or_zero]
    constructor
    · intro h
      refine Decidable.byContradiction fun hn => h (orAll_disj _ _ fun d hd => pairwise_ne hpf (hs d hd) hc ?_)
      intro e; subst e; exact hn hd
    · intro h
      rw [orAll_has s c h]; exact hne c hc
  · intro p hpz
    obtain ⟨hmem, heq⟩ := hfield p hpz
    have hpf' : p.1 ∈ w.fields := (List.of_mem_zip hpz).1
    have h1 : p.1.1 ∈ wordNames w := List.mem_append.2 (Or.inr (List.mem_flatMap.2 ⟨p.1, hpf', by simp⟩))
    have h2 : p.2 ∈ wordNames w := List.mem_append.2 (Or.inr (List.mem_flatMap.2 ⟨p.1, hpf', by simp [hmem]⟩))
    exact ⟨hmemh _ h2, p.1.1.2, p.2.2, hright _ h1, hright _ h2, heq⟩

/-- Open for writing, create, at the end: the kernel sees O_CREAT and O_APPEND, no O_TRUNC, and the mode to write. -/
example : (Spec.orAll [("O_CREAT", 64), ("O_APPEND", 1024)] ||| Spec.orAll [("O_WRONLY", 1)]) = 1089 ∧
    Picked openWord.fields [("O_WRONLY", 1)] ∧ (∀ c ∈ [("O_CREAT", 64), ("O_APPEND", 1024)], c ∈ openWord.flags) := by
  refine ⟨by decide, ?_, by decide +kernel⟩
  exact Picked.cons _ _ _ _ (by decide +kernel) Picked.nil

/-! ### The bounds of the types -/

theorem limits_ok : Spec.boundedTypes.all (fun t => decide (0 < t.2.2.1) &&
    (t.1 == "" || (limitsH ++ stdintH).contains (t.1, if t.2.2.2 then -(2 ^ (t.2.2.1 - 1) : Nat) else 0)) &&
    (limitsH ++ stdintH).contains (t.2.1, if t.2.2.2 then (2 ^ (t.2.2.1 - 1) - 1 : Nat) else (2 ^ t.2.2.1 - 1 : Nat))) = true := by
  decide +kernel

/-- The bounds of the headers are the bounds of the types: no object of the type has a lesser or larger value,
and one object has each bound. -/
theorem C102_limits : ∀ t ∈ Spec.boundedTypes,
    (∃ hi : Int, (t.2.1, hi) ∈ limitsH ++ stdintH ∧ (∀ b : BitVec t.2.2.1, Spec.number t.2.2.2 b ≤ hi) ∧
      ∃ b : BitVec t.2.2.1, Spec.number t.2.2.2 b = hi) ∧
    ∃ lo : Int, (t.1 = "" ∧ lo = 0 ∨ (t.1, lo) ∈ limitsH ++ stdintH) ∧
      (∀ b : BitVec t.2.2.1, lo ≤ Spec.number t.2.2.2 b) ∧ ∃ b : BitVec t.2.2.1, Spec.number t.2.2.2 b = lo := by
  have hsig : ∀ t ∈ Spec.boundedTypes, t.1 = "" → t.2.2.2 = false := by decide +kernel
  intro t ht
  have h := List.all_eq_true.1 limits_ok t ht
  have hs := hsig t ht
  obtain ⟨mn, mx, w, sgn⟩ := t
  simp only [Bool.and_eq_true, decide_eq_true_eq, Bool.or_eq_true, beq_iff_eq, List.contains_iff_mem] at h hs
  obtain ⟨⟨hw, hmn⟩, hmx⟩ := h
  obtain ⟨w, rfl⟩ : ∃ v, w = v + 1 := ⟨w - 1, by omega⟩
  have h2 : (2 : Nat) ^ (w + 1) = 2 * 2 ^ w := by rw [Nat.pow_succ]; omega
  have hp := Nat.two_pow_pos w
  simp only [Nat.add_sub_cancel] at hmn hmx
  cases sgn with
  | true =>
    simp only [if_pos] at hmn hmx
    refine ⟨⟨_, hmx, ?_, BitVec.ofNat (w + 1) (2 ^ w - 1), ?_⟩, _, Or.inr (hmn.resolve_left fun e => absurd (hs e) (by simp)), ?_,
      BitVec.ofNat (w + 1) (2 ^ w), ?_⟩
    · intro b
      simp only [Spec.number, if_true]
      have := BitVec.toInt_lt (x := b)
      simp only [Nat.add_sub_cancel] at this
      have e : ((2 : Int) ^ w) = ((2 ^ w : Nat) : Int) := by simp
      omega
    · simp only [Spec.number, if_true]
      rw [BitVec.toInt_eq_toNat_cond, BitVec.toNat_ofNat, Nat.mod_eq_of_lt (by omega), if_pos (by omega)]
    · intro b
      simp only [Spec.number, if_true]
      have := BitVec.le_toInt (x := b)
      simp only [Nat.add_sub_cancel] at this
      have e : ((2 : Int) ^ w) = ((2 ^ w : Nat) : Int) := by simp
      omega
    · simp only [Spec.number, if_true]
      rw [BitVec.toInt_eq_toNat_cond, BitVec.toNat_ofNat, Nat.mod_eq_of_lt (by omega), if_neg (by omega)]
      omega
  | false =>
    simp only [Bool.false_eq_true, if_false] at hmn hmx
    refine ⟨⟨_, hmx, ?_, BitVec.ofNat (w + 1) (2 ^ (w + 1) - 1), ?_⟩, 0, hmn.imp (fun e => ⟨e, rfl⟩) id, ?_, 0, ?_⟩
    · intro b
      simp only [Spec.number, Bool.false_eq_true, if_false]
      have := b.isLt
      simp only at this
      omega
    · simp only [Spec.number, Bool.false_eq_true, if_false]
      rw [BitVec.toNat_ofNat, Nat.mod_eq_of_lt (by omega)]
    · intro b; simp [Spec.number]
    · simp [Spec.number]

/-- The largest long, and the word one above it is the least. -/
example : Spec.number true (9223372036854775807#64) = 9223372036854775807 ∧
    Spec.number true (9223372036854775807#64 + 1) = -9223372036854775808 := by decide

/-- C102: `SIGKILL` and `O_CREAT`. -/
example : Spec.Kernel.Has "SIGKILL" 9 ∧ Spec.Kernel.Has "O_CREAT" 64 := by
  have h : ∀ c : String × Int, headerTables.any (fun t => t.any (· == c)) = true → c.1 ∉ ["K_CAPSLOCK", "K_NUMLOCK"] →
      Spec.Kernel.Has c.1 c.2 := by
    intro c hc hn
    obtain ⟨t, ht, h1⟩ := List.any_eq_true.1 hc
    obtain ⟨c', h2, h3⟩ := List.any_eq_true.1 h1
    rw [← eq_of_beq h3] at hn ⊢
    exact C102_values_partial t ht c' h2 hn
  exact ⟨h ("SIGKILL", 9) (by decide +kernel) (by decide), h ("O_CREAT", 64) (by decide +kernel) (by decide)⟩

end Minilib

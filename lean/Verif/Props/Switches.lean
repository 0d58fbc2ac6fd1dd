import Verif.Lemmas.Switches
/-
Property C106: a program that switches functions on gets them together with everything they need.
-/

set_option autoImplicit false

namespace Spec

/-- What a set of names requires: the names themselves, and what the tags say of each name required. -/
inductive Required (tags : List (Nat × List Nat)) (S : Nat → Bool) : Nat → Prop
  | given (f : Nat) (h : S f = true) : Required tags S f
  | tag (f d : Nat) (r : Nat × List Nat) (h : Required tags S f) (hr : r ∈ tags) (hf : r.1 = f) (hd : d ∈ r.2) :
      Required tags S d

/-- What is called when `f` is called, directly or not, in code compiled with the switches `on`. -/
inductive CalledFrom (calls : List (Nat × Option Nat × Nat)) (on : Nat → Bool) (f : Nat) : Nat → Prop
  | self : CalledFrom calls on f f
  | call (e : Nat × Option Nat × Nat) (h : CalledFrom calls on f e.1) (he : e ∈ calls)
      (hc : ∀ c, e.2.1 = some c → on c = true) : CalledFrom calls on f e.2.2

/-- The definition of a name is compiled: one of the switches that include its file is on, and all asked for inside. -/
def Compiled (by_ : Nat → List Nat × List Nat) (on : Nat → Bool) (x : Nat) : Prop :=
  (∃ y ∈ (by_ x).1, on y = true) ∧ ∀ y ∈ (by_ x).2, on y = true

end Spec

namespace Minilib
open Spec

/-! ### Dependencies -/

/-- Whatever a program switches on, what the tags of the sources demand is on. -/
def C106_depends_full : Prop := ∀ (S : Nat → Bool) (n : Nat), Required tagTable S n → switches S n = true

/-- The switches for which two rounds of the groups are not enough, or whose tag got lost. -/
def depShort : List Nat := [Sw.m_closedir, Sw.m_getgrouplist, Sw.m_getgroups, Sw.m_group_print, Sw.m_opendir, Sw.m_vsprintf]

/-- All tags are obeyed in a set given as a number. -/
noncomputable def tagsHold (M : Nat) : Bool :=
  lAll (fun r => !bit M r.1 || lAll (fun d => bit M d) r.2) tagTable

/-- As a proposition. -/
def TagsHold (D : Nat → Bool) : Prop := ∀ r ∈ tagTable, D r.1 = true → ∀ d ∈ r.2, D d = true

theorem tagsHold_iff (M : Nat) : tagsHold M = true ↔ TagsHold M.testBit := by
  simp only [tagsHold, TagsHold, lAll_iff, Bool.or_eq_true, Bool.not_eq_true', bit_eq]
  constructor
  · intro h r hr h1 d hd
    rcases h r hr with h2 | h2
    · rw [h1] at h2; cases h2
    · exact h2 d hd
  · intro h r hr
    cases h1 : M.testBit r.1 with
    | false => exact Or.inl rfl
    | true => exact Or.inr (h r hr h1)

/-- The check for one name. -/
noncomputable def tagsOne (m : Nat) : Bool := depShort.contains m || force (mSwitches m) tagsHold

theorem tags_checked0 : allFrom tagsOne 0 30 = true := by decide +kernel
theorem tags_checked1 : allFrom tagsOne 30 30 = true := by decide +kernel
theorem tags_checked2 : allFrom tagsOne 60 30 = true := by decide +kernel
theorem tags_checked3 : allFrom tagsOne 90 30 = true := by decide +kernel
theorem tags_checked4 : allFrom tagsOne 120 30 = true := by decide +kernel
theorem tags_checked5 : allFrom tagsOne 150 30 = true := by decide +kernel
theorem tags_checked6 : allFrom tagsOne 180 30 = true := by decide +kernel
theorem tags_checked7 : allFrom tagsOne 210 30 = true := by decide +kernel
theorem tags_checked8 : allFrom tagsOne 240 30 = true := by decide +kernel
theorem tags_checked9 : allFrom tagsOne 270 26 = true := by decide +kernel

theorem tags_checked (m : Nat) (h : m < Sw.count) : tagsOne m = true := by
  have h : m < 296 := h
  have h0 : (0 ≤ m ∧ m < 30) ∨ (30 ≤ m ∧ m < 60) ∨ (60 ≤ m ∧ m < 90) ∨ (90 ≤ m ∧ m < 120) ∨ (120 ≤ m ∧ m < 150) ∨ (150 ≤ m ∧ m < 180) ∨ (180 ≤ m ∧ m < 210) ∨ (210 ≤ m ∧ m < 240) ∨ (240 ≤ m ∧ m < 270) ∨ (270 ≤ m ∧ m < 296) := by omega
  rcases h0 with h0 | h0 | h0 | h0 | h0 | h0 | h0 | h0 | h0 | h0
  · exact allFrom_at _ _ _ tags_checked0 m (by omega) (by omega)
  · exact allFrom_at _ _ _ tags_checked1 m (by omega) (by omega)
  · exact allFrom_at _ _ _ tags_checked2 m (by omega) (by omega)
  · exact allFrom_at _ _ _ tags_checked3 m (by omega) (by omega)
  · exact allFrom_at _ _ _ tags_checked4 m (by omega) (by omega)
  · exact allFrom_at _ _ _ tags_checked5 m (by omega) (by omega)
  · exact allFrom_at _ _ _ tags_checked6 m (by omega) (by omega)
  · exact allFrom_at _ _ _ tags_checked7 m (by omega) (by omega)
  · exact allFrom_at _ _ _ tags_checked8 m (by omega) (by omega)
  · exact allFrom_at _ _ _ tags_checked9 m (by omega) (by omega)

theorem tagsHold_one (m : Nat) (h : m ∉ depShort) : TagsHold (switches (oneSw m)) := by
  by_cases hm : m < Sw.count
  · have h1 := tags_checked m hm
    have h2 : depShort.contains m = false := by simpa using h
    rw [tagsOne, h2, Bool.false_or, force_eq] at h1
    rw [← mSwitches_eq]
    exact (tagsHold_iff _).1 h1
  · rw [switches_idle m (by omega)]
    intro r hr h1 d hd
    have h2 : ∀ r ∈ tagTable, r.1 < Sw.count := by decide +kernel
    have h3 := h2 r hr
    have h4 := beq_iff_eq.1 h1
    omega

theorem tagsHold_all (S : Nat → Bool) (h : ∀ m ∈ depShort, S m = false) : TagsHold (switches S) := by
  intro r hr h1 d hd
  obtain ⟨m, hm, hk⟩ := (switches_union S _).1 h1
  have h2 : m ∉ depShort := fun hc => by rw [h m hc] at hm; cases hm
  exact (switches_union S d).2 ⟨m, hm, tagsHold_one m h2 r hr hk d hd⟩

theorem required_of_tagsHold (S D : Nat → Bool) (h0 : ∀ n, S n = true → D n = true) (h : TagsHold D) (n : Nat)
    (hn : Required tagTable S n) : D n = true := by
  induction hn with
  | given f hf => exact h0 f hf
  | tag f d r _ hr hf hd ih => exact h r hr (by rw [hf]; exact ih) d hd

/-- For every set of switches without the six of `depShort`, everything required is on. -/
theorem C106_depends_partial (S : Nat → Bool) (h : ∀ m ∈ depShort, S m = false) (n : Nat)
    (hn : Required tagTable S n) : switches S n = true :=
  required_of_tagsHold S _ (fun _ => switches_given S _) (tagsHold_all S h) n hn

example : (∀ m ∈ depShort, oneSw Sw.m_printf m = false) ∧ Required tagTable (oneSw Sw.m_printf) Sw.m_write :=
  ⟨by decide, .tag Sw.m_printf Sw.m_write
    (Sw.m_printf, [Sw.m_fprintf, Sw.m_fileno, Sw.m_snprintf, Sw.m_vsnprintf, Sw.m_write, Sw.m_strlen])
    (.given _ (by decide)) (by decide +kernel) rfl (by decide)⟩

/-- A way from each of the six over tags to a name that stays off. -/
def depWays : List (Nat × List Nat) :=
  [(Sw.m_closedir, [Sw.m_free, Sw.m_brk, Sw.m_sys_brk]),
   (Sw.m_getgrouplist, [Sw.m_getusergroups, Sw.m_strcmp, Sw.m__strcmp]),
   (Sw.m_getgroups, [Sw.m_getusergroups, Sw.m_getgrent, Sw.m_userdb]),
   (Sw.m_group_print, [Sw.m_puts, Sw.m_printf, Sw.m_fprintf, Sw.m_globals]),
   (Sw.m_opendir, [Sw.m_free, Sw.m_brk, Sw.m_sys_brk]),
   (Sw.m_vsprintf, [Sw.m_write])]

/-- Every next name is in a tag of the one before. -/
def tagWay : Nat → List Nat → Bool
  | _, [] => true
  | f, d :: l => (tagTable.any fun r => r.1 == f && r.2.contains d) && tagWay d l

theorem required_way (S : Nat → Bool) (f : Nat) (l : List Nat) (h : tagWay f l = true) (hf : Required tagTable S f) :
    Required tagTable S (l.getLastD f) := by
  induction l generalizing f with
  | nil => exact hf
  | cons d l ih =>
    simp only [tagWay, Bool.and_eq_true, List.any_eq_true, beq_iff_eq] at h
    obtain ⟨⟨r, hr, h1, h2⟩, h3⟩ := h
    have := ih d h3 (.tag f d r hf hr h1 (by simpa using h2))
    cases l <;> exact this

/-- And with each of the six alone, something required is not on. -/
theorem C106_depends_exact (m : Nat) (h : m ∈ depShort) :
    ∃ n, Required tagTable (oneSw m) n ∧ switches (oneSw m) n = false := by
  have h1 : ∀ m ∈ depShort, ∃ w ∈ depWays, w.1 = m ∧ tagWay m w.2 = true ∧ (mSwitches m).testBit (w.2.getLastD m) = false := by
    decide +kernel
  obtain ⟨w, -, -, h2, h3⟩ := h1 m h
  exact ⟨_, required_way _ m w.2 h2 (.given m (by simp [oneSw])), by rw [← mSwitches_eq]; exact h3⟩

theorem C106_depends_refuted : ¬ C106_depends_full := by
  intro h
  obtain ⟨n, h1, h2⟩ := C106_depends_exact Sw.m_opendir (by decide)
  rw [h _ n h1] at h2
  cases h2

/-- What minilib.h adds to the tags: environ for getenv and system, what getopt needs, and `mini_0`, which is the name of
nothing, where a tag is empty. -/
def _root_.Spec.extraTags : List (Nat × List Nat) :=
  [(Sw.m_getenv, [Sw.m_environ]), (Sw.m_system, [Sw.m_environ]), (Sw.m_getopt, [Sw.m_prints, Sw.m_strcmp, Sw.m_strchr]),
   (Sw.m_malloc, [Sw.m_0]), (Sw.m_memcmp, [Sw.m_0]), (Sw.m_snprintfs, [Sw.m_0]), (Sw.m_vsprintf, [Sw.m_0])]

theorem groups_checked : lAll (fun b => lAll (fun d => lAny (fun r => Nat.beq r.1 b.1 && lAny (fun x => Nat.beq x d) r.2)
    (tagTable ++ extraTags)) b.2) allGroups = true := by
  decide +kernel

/-- Nothing else is switched on than what is required. -/
theorem C106_minimal (S : Nat → Bool) (n : Nat) (h : switches S n = true) : Required (tagTable ++ extraTags) S n := by
  have h0 : ∀ b ∈ allGroups, ∀ d ∈ b.2, ∃ r ∈ tagTable ++ extraTags, r.1 = b.1 ∧ d ∈ r.2 := by
    intro b hb d hd
    obtain ⟨r, hr, h1⟩ := (lAny_iff _ _).1 ((lAll_iff _ _).1 ((lAll_iff _ _).1 groups_checked b hb) d hd)
    simp only [Bool.and_eq_true, Nat.beq_eq] at h1
    obtain ⟨x, hx, h2⟩ := (lAny_iff _ _).1 h1.2
    exact ⟨r, hr, h1.1, Nat.eq_of_beq_eq_true h2 ▸ hx⟩
  have key : ∀ (t : List (Nat × List Nat)) (D : Nat → Bool),
      (∀ b ∈ t, ∀ d ∈ b.2, ∃ r ∈ tagTable ++ extraTags, r.1 = b.1 ∧ d ∈ r.2) →
      (∀ k, D k = true → Required (tagTable ++ extraTags) S k) → ∀ k, t.foldl grpStep D k = true →
      Required (tagTable ++ extraTags) S k := by
    intro t
    induction t with
    | nil => intro D _ hD k hk; exact hD k hk
    | cons b t ih =>
      intro D ht hD
      refine ih _ (fun b hb => ht b (List.mem_cons_of_mem _ hb)) fun k hk => ?_
      simp only [grpStep, Bool.or_eq_true, Bool.and_eq_true] at hk
      rcases hk with hk | ⟨h1, h2⟩
      · exact hD k hk
      · obtain ⟨r, hr, e, hd⟩ := ht b List.mem_cons_self k (by simpa using h2)
        exact .tag b.1 k r (hD _ h1) hr e hd
  rw [switches_eq] at h
  exact key _ S h0 (fun k hk => .given k hk) n h

/-! ### Calls -/

/-- Whatever a program switches on, everything that is called by these functions is compiled. -/
def C106_calls_full : Prop := ∀ (S : Nat → Bool) (f g : Nat), S f = true → CalledFrom callTable (switches S) f g →
  Compiled definedBy (switches S) g

/-- The functions with which this fails when nothing else is on, and a way from each over calls to one that is not
compiled. -/
def callWays : List (Nat × List Nat) :=
  [(Sw.m__die, [Sw.m_exit_errno]),
   (Sw.m_calloc, [Sw.m_malloc]),
   (Sw.m_closedir, [Sw.m_close]),
   (Sw.m_dief_if, [Sw.m_dief]),
   (Sw.m_eprintf, [Sw.m_fprintf]),
   (Sw.m_fexecve, [Sw.m_execveat]),
   (Sw.m_fexecveat, [Sw.m_execveat]),
   (Sw.m_free_brk, [Sw.m_getbrk]),
   (Sw.m_getbrk, [Sw.m_sys_brk]),
   (Sw.m_getgrent, [Sw.m_userdb_open]),
   (Sw.m_getgrouplist, [Sw.m_getusergroups, Sw.m_getgrent, Sw.m_userdb_open]),
   (Sw.m_getgroups, [Sw.m_getpwuid, Sw.m_userdb_open]),
   (Sw.m_getpwent, [Sw.m_userdb_open]),
   (Sw.m_getpwuid, [Sw.m_userdb_open]),
   (Sw.m_getusergroups, [Sw.m_getgrent, Sw.m_userdb_open]),
   (Sw.m_grantpt, [Sw.m_chmod]),
   (Sw.m_initgroups, [Sw.m_getpwnam]),
   (Sw.m_killpg, [Sw.m_kill]),
   (Sw.m_malloc, [Sw.m_write]),
   (Sw.m_mkfifo, [Sw.m_mknod]),
   (Sw.m_ntohl, [Sw.m_htonl]),
   (Sw.m_realloc, [Sw.m_write]),
   (Sw.m_rewinddir, [Sw.m_lseek]),
   (Sw.m_sbrk, [Sw.m_getbrk]),
   (Sw.m_scandir, [Sw.m_close]),
   (Sw.m_seekdir, [Sw.m_lseek]),
   (Sw.m_setenv, [Sw.m_malloc, Sw.m_write]),
   (Sw.m_snprintfs, [Sw.m_stpncpy]),
   (Sw.m_strdup, [Sw.m_malloc, Sw.m_write]),
   (Sw.m_strndup, [Sw.m_malloc, Sw.m_write]),
   (Sw.m_strpbrk, [Sw.m_strchrnul]),
   (Sw.m_tcgetpgrp, [Sw.m_ioctl]),
   (Sw.m_tcsetpgrp, [Sw.m_ioctl]),
   (Sw.m_userdb_open, [Sw.m_open]),
   (Sw.m_vexec_q, [Sw.m_close]),
   (Sw.m_vsprintf, [Sw.m_vsnprintf])]

/-- The definition of a name is compiled with the switches given as a number. -/
def mCompiled (M x : Nat) : Bool :=
  (definedBy x).1.any (fun y => M.testBit y) && (definedBy x).2.all fun y => M.testBit y

theorem mCompiled_iff (M x : Nat) : mCompiled M x = true ↔ Compiled definedBy M.testBit x := by
  simp [mCompiled, Compiled]

theorem Compiled.mono {D E : Nat → Bool} (h : ∀ n, D n = true → E n = true) {x : Nat} (hx : Compiled definedBy D x) :
    Compiled definedBy E x :=
  ⟨let ⟨y, hy, h1⟩ := hx.1; ⟨y, hy, h y h1⟩, fun y hy => h y (hx.2 y hy)⟩

/-- Every next name is called by the one before. -/
noncomputable def callWay (M : Nat) : Nat → List Nat → Bool
  | _, [] => true
  | f, d :: l => lAny (fun e => Nat.beq e.1 f && (Nat.beq e.2.2 d && e.2.1.all fun c => bit M c)) callTable && callWay M d l

theorem called_way (M f : Nat) (l : List Nat) (g : Nat) (h : callWay M f l = true)
    (hf : CalledFrom callTable M.testBit g f) : CalledFrom callTable M.testBit g (l.getLastD f) := by
  induction l generalizing f with
  | nil => exact hf
  | cons d l ih =>
    rw [callWay, Bool.and_eq_true, lAny_iff] at h
    obtain ⟨⟨e, he, h0⟩, h4⟩ := h
    rw [Bool.and_eq_true, Bool.and_eq_true] at h0
    obtain ⟨h1, h2, h3⟩ := h0
    have h1 := Nat.eq_of_beq_eq_true h1
    have h2 := Nat.eq_of_beq_eq_true h2
    have h5 := CalledFrom.call e (by rw [h1]; exact hf) he
      (fun c hc => by rw [hc, Option.all_some, bit_eq] at h3; exact h3)
    rw [h2] at h5
    have := ih d h4 h5
    cases l <;> exact this

theorem ways_checked : lAll (fun w => force (mSwitches w.1) fun M => callWay M w.1 w.2 && !mCompiled M (w.2.getLastD w.1))
    callWays = true := by
  decide +kernel

/-- With each of these functions alone, something it calls is not compiled. -/
theorem C106_calls_exact (f : Nat) (h : f ∈ callWays.map (·.1)) :
    ∃ g, CalledFrom callTable (switches (oneSw f)) f g ∧ ¬ Compiled definedBy (switches (oneSw f)) g := by
  obtain ⟨w, hw, e⟩ := List.mem_map.1 h
  have h1 := (lAll_iff _ _).1 ways_checked w hw
  rw [force_eq, Bool.and_eq_true, Bool.not_eq_true'] at h1
  obtain ⟨h2, h3⟩ := h1
  rw [← e, ← mSwitches_eq]
  refine ⟨_, called_way _ _ _ _ h2 .self, fun hc => ?_⟩
  rw [(mCompiled_iff _ _).2 hc] at h3
  cases h3

theorem C106_calls_refuted : ¬ C106_calls_full := by
  intro h
  obtain ⟨g, h1, h2⟩ := C106_calls_exact Sw.m_calloc (by decide)
  exact h2 (h _ _ g (by simp [oneSw]) h1)

/-! #### All other sets -/

/-- All names of the table. -/
def allMask : Nat := 2 ^ Sw.count - 1

/-- Sets or clears the bits of the names with rows in `fileTable`. -/
noncomputable def patchFiles (M : Nat) (l : List (Nat × List Nat × List Nat)) (B : Nat) : Nat :=
  List.rec B (fun r _ ih => force ih fun B2 =>
    Bool.rec (setBit B2 r.1) (Nat.xor (setBit B2 r.1) (Nat.shiftLeft 1 r.1))
      (lAny (fun y => bit M y) r.2.1 && lAll (fun y => bit M y) r.2.2)) l

/-- The names whose definition is not compiled. -/
noncomputable def missing (M : Nat) : Nat := patchFiles M fileTable (Nat.xor allMask (Nat.land allMask M))

/-- The condition of a call. -/
def condOn (M : Nat) (c : Option Nat) : Bool := match c with | none => true | some c => bit M c

/-- The names of which the definition, or something called, is not compiled (callees come first in the table). -/
noncomputable def broken (M U : Nat) : Nat :=
  sFold (fun B e => Bool.rec B (Bool.rec B (setBit B e.1) (condOn M e.2.1)) (bit B e.2.2)) callTable U

/-- Nothing broken is called by what is not broken, and what is not broken is compiled. -/
noncomputable def soundFor (M U B : Nat) : Bool :=
  lAll (fun e => Bool.rec true (Bool.rec (!condOn M e.2.1) true (bit B e.1)) (bit B e.2.2)) callTable && Nat.beq (Nat.lor U B) B

/-- With these switches, whatever is called from `x` is compiled. -/
noncomputable def checkName (M x : Nat) : Bool :=
  force (missing M) fun U => force (broken M U) fun B => soundFor M U B && !bit B x

/-- What the tags demand with `c`. -/
noncomputable def mTags (c : Nat) : Nat := sFold mStep tagTable (sFold mStep tagTable (setBit 0 c))

/-- The check without and with the switch that exchanges the allocator. -/
noncomputable def checkBoth (M x : Nat) : Bool :=
  checkName M x && force (Nat.lor M (mTags Sw.m_malloc_brk)) fun M2 => checkName M2 x

/-- The check for the conditional calls (those with the exchanged allocator are in the other check): with the condition on,
whatever is called from the callee is compiled. -/
noncomputable def checkCond (e : Nat × Option Nat × Nat) : Bool := match e.2.1 with
  | none => true
  | some c => Nat.beq c Sw.m_malloc_brk || force (mTags c) fun M => checkBoth M e.2.2

theorem conds_checked : lAll checkCond callTable = true := by
  decide +kernel

/-- The check for one function. -/
noncomputable def callsOne (f : Nat) : Bool :=
  lAny (fun w => Nat.beq w.1 f) callWays || force (mSwitches f) fun M => checkBoth M f

theorem calls_checked0 : allFrom callsOne 0 13 = true := by decide +kernel
theorem calls_checked1 : allFrom callsOne 13 13 = true := by decide +kernel
theorem calls_checked2 : allFrom callsOne 26 13 = true := by decide +kernel
theorem calls_checked3 : allFrom callsOne 39 13 = true := by decide +kernel
theorem calls_checked4 : allFrom callsOne 52 13 = true := by decide +kernel
theorem calls_checked5 : allFrom callsOne 65 13 = true := by decide +kernel
theorem calls_checked6 : allFrom callsOne 78 13 = true := by decide +kernel
theorem calls_checked7 : allFrom callsOne 91 13 = true := by decide +kernel
theorem calls_checked8 : allFrom callsOne 104 13 = true := by decide +kernel
theorem calls_checked9 : allFrom callsOne 117 13 = true := by decide +kernel
theorem calls_checked10 : allFrom callsOne 130 13 = true := by decide +kernel
theorem calls_checked11 : allFrom callsOne 143 13 = true := by decide +kernel
theorem calls_checked12 : allFrom callsOne 156 13 = true := by decide +kernel
theorem calls_checked13 : allFrom callsOne 169 13 = true := by decide +kernel
theorem calls_checked14 : allFrom callsOne 182 13 = true := by decide +kernel
theorem calls_checked15 : allFrom callsOne 195 13 = true := by decide +kernel
theorem calls_checked16 : allFrom callsOne 208 13 = true := by decide +kernel
theorem calls_checked17 : allFrom callsOne 221 13 = true := by decide +kernel
theorem calls_checked18 : allFrom callsOne 234 13 = true := by decide +kernel
theorem calls_checked19 : allFrom callsOne 247 13 = true := by decide +kernel
theorem calls_checked20 : allFrom callsOne 260 13 = true := by decide +kernel
theorem calls_checked21 : allFrom callsOne 273 13 = true := by decide +kernel
theorem calls_checked22 : allFrom callsOne 286 10 = true := by decide +kernel

theorem calls_checked (m : Nat) (h : m < Sw.count) : callsOne m = true := by
  have h : m < 296 := h
  have h0 : (0 ≤ m ∧ m < 13) ∨
      (13 ≤ m ∧ m < 26) ∨
      (26 ≤ m ∧ m < 39) ∨
      (39 ≤ m ∧ m < 52) ∨
      (52 ≤ m ∧ m < 65) ∨
      (65 ≤ m ∧ m < 78) ∨
      (78 ≤ m ∧ m < 91) ∨
      (91 ≤ m ∧ m < 104) ∨
      (104 ≤ m ∧ m < 117) ∨
      (117 ≤ m ∧ m < 130) ∨
      (130 ≤ m ∧ m < 143) ∨
      (143 ≤ m ∧ m < 156) ∨
      (156 ≤ m ∧ m < 169) ∨
      (169 ≤ m ∧ m < 182) ∨
      (182 ≤ m ∧ m < 195) ∨
      (195 ≤ m ∧ m < 208) ∨
      (208 ≤ m ∧ m < 221) ∨
      (221 ≤ m ∧ m < 234) ∨
      (234 ≤ m ∧ m < 247) ∨
      (247 ≤ m ∧ m < 260) ∨
      (260 ≤ m ∧ m < 273) ∨
      (273 ≤ m ∧ m < 286) ∨
      (286 ≤ m ∧ m < 296) := by
    omega
  rcases h0 with h0 | h0 | h0 | h0 | h0 | h0 | h0 | h0 | h0 | h0 | h0 | h0 | h0 | h0 | h0 | h0 | h0 | h0 | h0 | h0 | h0 | h0 | h0
  · exact allFrom_at _ _ _ calls_checked0 m (by omega) (by omega)
  · exact allFrom_at _ _ _ calls_checked1 m (by omega) (by omega)
  · exact allFrom_at _ _ _ calls_checked2 m (by omega) (by omega)
  · exact allFrom_at _ _ _ calls_checked3 m (by omega) (by omega)
  · exact allFrom_at _ _ _ calls_checked4 m (by omega) (by omega)
  · exact allFrom_at _ _ _ calls_checked5 m (by omega) (by omega)
  · exact allFrom_at _ _ _ calls_checked6 m (by omega) (by omega)
  · exact allFrom_at _ _ _ calls_checked7 m (by omega) (by omega)
  · exact allFrom_at _ _ _ calls_checked8 m (by omega) (by omega)
  · exact allFrom_at _ _ _ calls_checked9 m (by omega) (by omega)
  · exact allFrom_at _ _ _ calls_checked10 m (by omega) (by omega)
  · exact allFrom_at _ _ _ calls_checked11 m (by omega) (by omega)
  · exact allFrom_at _ _ _ calls_checked12 m (by omega) (by omega)
  · exact allFrom_at _ _ _ calls_checked13 m (by omega) (by omega)
  · exact allFrom_at _ _ _ calls_checked14 m (by omega) (by omega)
  · exact allFrom_at _ _ _ calls_checked15 m (by omega) (by omega)
  · exact allFrom_at _ _ _ calls_checked16 m (by omega) (by omega)
  · exact allFrom_at _ _ _ calls_checked17 m (by omega) (by omega)
  · exact allFrom_at _ _ _ calls_checked18 m (by omega) (by omega)
  · exact allFrom_at _ _ _ calls_checked19 m (by omega) (by omega)
  · exact allFrom_at _ _ _ calls_checked20 m (by omega) (by omega)
  · exact allFrom_at _ _ _ calls_checked21 m (by omega) (by omega)
  · exact allFrom_at _ _ _ calls_checked22 m (by omega) (by omega)

theorem testBit_patchFiles (M : Nat) (l : List (Nat × List Nat × List Nat)) (B x : Nat) :
    (patchFiles M l B).testBit x = match l.find? fun r => r.1 == x with
      | some r => !(r.2.1.any (fun y => M.testBit y) && r.2.2.all fun y => M.testBit y)
      | none => B.testBit x := by
  induction l with
  | nil => rfl
  | cons r l ih =>
    have h0 : patchFiles M (r :: l) B = force (patchFiles M l B) fun B2 =>
      @Bool.rec (fun _ => Nat) (setBit B2 r.1) (Nat.xor (setBit B2 r.1) (Nat.shiftLeft 1 r.1))
        (lAny (fun y => bit M y) r.2.1 && lAll (fun y => bit M y) r.2.2) := rfl
    have h1 : lAny (fun y => bit M y) r.2.1 = r.2.1.any fun y => M.testBit y := by
      rw [Bool.eq_iff_iff, lAny_iff, List.any_eq_true]; simp only [bit_eq]
    have h2 : lAll (fun y => bit M y) r.2.2 = r.2.2.all fun y => M.testBit y := by
      rw [Bool.eq_iff_iff, lAll_iff, List.all_eq_true]; simp only [bit_eq]
    have h3 : ∀ k : Nat, (Nat.xor k (Nat.shiftLeft 1 r.1)).testBit x = (k.testBit x ^^ (x == r.1)) := fun k => by
      rw [← testBit_one]; exact Nat.testBit_xor ..
    rw [h0, force_eq, h1, h2, List.find?_cons]
    cases hx : (r.1 == x) with
    | true =>
      have e := beq_iff_eq.1 hx
      subst e
      cases hc : (r.2.1.any (fun y => M.testBit y) && r.2.2.all fun y => M.testBit y) with
      | true => simp only [hc]; rw [h3, testBit_setBit]; simp
      | false => simp only [hc]; rw [testBit_setBit]; simp
    | false =>
      have hx' : (x == r.1) = false := by
        rw [beq_eq_false_iff_ne] at hx ⊢
        exact fun e => hx e.symm
      rw [← ih]
      cases (r.2.1.any (fun y => M.testBit y) && r.2.2.all fun y => M.testBit y) with
      | true => simp only; rw [h3, testBit_setBit, hx']; simp
      | false => simp only; rw [testBit_setBit, hx']; simp

theorem missing_iff (M x : Nat) (hx : x < Sw.count) (h : (missing M).testBit x = false) : Compiled definedBy M.testBit x := by
  rw [← mCompiled_iff]
  rw [missing, testBit_patchFiles] at h
  rw [mCompiled, definedBy]
  cases hf : fileTable.find? fun r => r.1 == x with
  | some r =>
    rw [hf] at h
    simp only at h ⊢
    exact (Bool.not_eq_false' _).mp h
  | none =>
    rw [hf] at h
    simp only at h ⊢
    have h1 : (Nat.xor allMask (Nat.land allMask M)).testBit x = (allMask.testBit x ^^ (allMask.testBit x && M.testBit x)) := by
      rw [← Nat.testBit_and]; exact Nat.testBit_xor ..
    rw [h1, allMask, Nat.testBit_two_pow_sub_one, decide_eq_true hx] at h
    cases hM : M.testBit x with
    | true => simp [hM]
    | false => rw [hM] at h; cases h

/-- A set of switches with which whatever is called from `g` is compiled. -/
def Fine (M g : Nat) : Prop := ∃ P : Nat → Prop, P g ∧ (∀ x, P x → x < Sw.count → Compiled definedBy M.testBit x) ∧
  ∀ e ∈ callTable, P e.1 → (∀ c, e.2.1 = some c → M.testBit c = true) → P e.2.2

theorem fine_of_checkName (M x : Nat) (h : checkName M x = true) : Fine M x := by
  rw [checkName, force_eq, force_eq, Bool.and_eq_true, soundFor, Bool.and_eq_true, lAll_iff, Bool.not_eq_true', bit_eq] at h
  obtain ⟨⟨h1, h2⟩, h3⟩ := h
  generalize broken M (missing M) = B at h1 h2 h3
  refine ⟨fun y => B.testBit y = false, h3, fun y hy hc => ?_, fun e he hB hc => ?_⟩
  · refine missing_iff M y hc ?_
    have h4 : (Nat.lor (missing M) B).testBit y = ((missing M).testBit y || B.testBit y) := Nat.testBit_or ..
    rw [Nat.eq_of_beq_eq_true h2, hy, Bool.or_false] at h4
    exact h4.symm
  · have h4 := h1 e he
    rw [bit_eq, bit_eq, hB] at h4
    have h5 : condOn M e.2.1 = true := by
      cases h6 : e.2.1 with
      | none => rfl
      | some c => show bit M c = true; rw [bit_eq]; exact hc c h6
    rw [h5] at h4
    cases h7 : B.testBit e.2.2 with
    | false => exact h7
    | true => rw [h7] at h4; cases h4

theorem testBit_lor (M N n : Nat) : (Nat.lor M N).testBit n = (M.testBit n || N.testBit n) := Nat.testBit_or ..

theorem tags_steps (D : Nat → Bool) (hD : TagsHold D) (M : Nat) (h : ∀ n, M.testBit n = true → D n = true) (n : Nat)
    (hn : (sFold mStep tagTable M).testBit n = true) : D n = true := by
  rw [sFold_eq, testBit_groups] at hn
  have key : ∀ (t : List (Nat × List Nat)) (E : Nat → Bool), (∀ r ∈ t, r ∈ tagTable) → (∀ k, E k = true → D k = true) →
      ∀ k, t.foldl grpStep E k = true → D k = true := by
    intro t
    induction t with
    | nil => intro E _ hE k hk; exact hE k hk
    | cons b t ih =>
      intro E ht hE
      refine ih _ (fun r hr => ht r (List.mem_cons_of_mem _ hr)) fun k hk => ?_
      simp only [grpStep, Bool.or_eq_true, Bool.and_eq_true] at hk
      rcases hk with hk | ⟨h1, h2⟩
      · exact hE k hk
      · exact hD b (ht b List.mem_cons_self) (hE _ h1) k (by simpa using h2)
  exact key _ _ (fun _ h => h) h n hn

theorem mTags_in (D : Nat → Bool) (hD : TagsHold D) (c : Nat) (hc : D c = true) (n : Nat)
    (hn : (mTags c).testBit n = true) : D n = true := by
  refine tags_steps D hD _ (fun k hk => tags_steps D hD _ (fun j hj => ?_) k hk) n hn
  rw [testBit_setBit, Nat.zero_testBit, Bool.false_or, beq_iff_eq] at hj
  exact hj ▸ hc

theorem mTags_self : (mTags Sw.m_malloc_brk).testBit Sw.m_malloc_brk = true := by
  rw [← bit_eq]
  decide +kernel

/-- A set inside the switches that has the exchanged allocator if it is on. -/
theorem fine_both (D : Nat → Bool) (hD : TagsHold D) (M x : Nat) (hM : ∀ n, M.testBit n = true → D n = true)
    (h : checkBoth M x = true) : ∃ N, (∀ n, N.testBit n = true → D n = true) ∧
      (D Sw.m_malloc_brk = true → N.testBit Sw.m_malloc_brk = true) ∧ Fine N x := by
  rw [checkBoth, Bool.and_eq_true, force_eq] at h
  cases hb : D Sw.m_malloc_brk with
  | false => exact ⟨M, hM, fun h => (by cases h), fine_of_checkName M x h.1⟩
  | true =>
    refine ⟨_, fun n hn => ?_, fun _ => ?_, fine_of_checkName _ x h.2⟩
    · rw [testBit_lor, Bool.or_eq_true] at hn
      exact hn.elim (hM n) (mTags_in D hD _ hb n)
    · rw [testBit_lor, mTags_self, Bool.or_true]

/-- With every set of switches that has none of the six whose dependencies are not all on, and for every function other
than the 36 of `callWays`: everything that is called is compiled. -/
theorem C106_calls_partial (S : Nat → Bool) (h : ∀ m ∈ depShort, S m = false) (f : Nat) (hf : S f = true)
    (hw : f ∉ callWays.map (·.1)) (g : Nat) (hg : CalledFrom callTable (switches S) f g) :
    Compiled definedBy (switches S) g := by
  have hD := tagsHold_all S h
  by_cases hc : f < Sw.count
  · have h1 := calls_checked f hc
    have h2 : lAny (fun w => Nat.beq w.1 f) callWays = false := by
      cases h3 : lAny (fun w => Nat.beq w.1 f) callWays with
      | false => rfl
      | true =>
        obtain ⟨w, h4, h5⟩ := (lAny_iff _ _).1 h3
        exact absurd (List.mem_map.2 ⟨w, h4, Nat.eq_of_beq_eq_true h5⟩) hw
    rw [callsOne, h2, Bool.false_or, force_eq] at h1
    have hin : ∀ n, (mSwitches f).testBit n = true → switches S n = true := by
      intro n hn
      rw [mSwitches_eq] at hn
      exact (switches_union S n).2 ⟨f, hf, hn⟩
    have hlt : ∀ e ∈ callTable, e.2.2 < Sw.count := by
      intro e he
      have : lAll (fun e => Nat.blt e.2.2 Sw.count) callTable = true := by decide +kernel
      have := (lAll_iff _ _).1 this e he
      exact Nat.le_of_ble_eq_true this
    have key : g < Sw.count ∧ ∃ N, (∀ n, N.testBit n = true → switches S n = true) ∧
        (switches S Sw.m_malloc_brk = true → N.testBit Sw.m_malloc_brk = true) ∧ Fine N g := by
      induction hg with
      | self => exact ⟨hc, fine_both _ hD _ f hin h1⟩
      | call e hcall he hcond ih =>
        obtain ⟨-, N, i1, i2, P, p1, p2, p3⟩ := ih
        refine ⟨hlt e he, ?_⟩
        have stay : (∀ c, e.2.1 = some c → N.testBit c = true) → ∃ N, (∀ n, N.testBit n = true → switches S n = true) ∧
            (switches S Sw.m_malloc_brk = true → N.testBit Sw.m_malloc_brk = true) ∧ Fine N e.2.2 :=
          fun hN => ⟨N, i1, i2, P, p3 e he p1 hN, p2, p3⟩
        cases hce : e.2.1 with
        | none => exact stay fun c hc => by rw [hce] at hc; cases hc
        | some c =>
          have hon := hcond c hce
          have h3 := (lAll_iff _ _).1 conds_checked e he
          rw [checkCond, hce] at h3
          simp only [Bool.or_eq_true, force_eq] at h3
          rcases h3 with h3 | h3
          · refine stay fun c' hc' => ?_
            rw [hce] at hc'
            cases hc'
            have e1 := Nat.eq_of_beq_eq_true h3
            rw [e1] at hon ⊢
            exact i2 hon
          · exact fine_both _ hD _ _ (mTags_in _ hD c hon) h3
    obtain ⟨hlt, N, i1, -, P, p1, p2, -⟩ := key
    exact Compiled.mono i1 (p2 g p1 hlt)
  · have hne : ∀ e ∈ callTable, e.1 < Sw.count := by
      intro e he
      have : lAll (fun e => Nat.blt e.1 Sw.count) callTable = true := by decide +kernel
      exact Nat.le_of_ble_eq_true ((lAll_iff _ _).1 this e he)
    have e1 : g = f := by
      induction hg with
      | self => rfl
      | call e _ he _ ih =>
        have := hne e he
        omega
    have e2 : definedBy g = ([g], []) := by
      have h3 : fileTable.find? (fun r => r.1 == g) = none := by
        rw [List.find?_eq_none]
        intro r hr hx
        have h4 : lAll (fun r => Nat.blt r.1 Sw.count) fileTable = true := by decide +kernel
        have h5 : r.1 < Sw.count := Nat.le_of_ble_eq_true ((lAll_iff _ _).1 h4 r hr)
        have := beq_iff_eq.1 hx
        omega
      rw [definedBy, h3]
    rw [Compiled, e2]
    exact ⟨⟨g, by simp, by rw [e1]; exact switches_given S f hf⟩, fun y hy => absurd hy List.not_mem_nil⟩

/-- Both `printf` and `malloc` on: `printf` is none of the exceptions, and calls `fprintf`. -/
example : (∀ m ∈ depShort, (fun n => n == Sw.m_printf || n == Sw.m_malloc) m = false) ∧
    Sw.m_printf ∉ callWays.map (·.1) ∧
    CalledFrom callTable (switches fun n => n == Sw.m_printf || n == Sw.m_malloc) Sw.m_printf Sw.m_fprintf :=
  ⟨by decide, by decide +kernel, .call (Sw.m_printf, none, Sw.m_fprintf) .self (by decide +kernel) (by simp)⟩

/-- C106: `closedir` alone lacks something, and so does the body of `calloc` alone; what is on with `printf` alone is asked for by something. -/
example : (∃ n, Required tagTable (oneSw Sw.m_closedir) n ∧ switches (oneSw Sw.m_closedir) n = false) ∧
    (∃ g, CalledFrom callTable (switches (oneSw Sw.m_calloc)) Sw.m_calloc g ∧ ¬ Compiled definedBy (switches (oneSw Sw.m_calloc)) g) ∧
    Required (tagTable ++ extraTags) (oneSw Sw.m_printf) Sw.m_write :=
  ⟨C106_depends_exact _ (by decide), C106_calls_exact _ (by decide +kernel), C106_minimal _ _ (C106_depends_partial (oneSw Sw.m_printf) (by decide)
    Sw.m_write (.tag Sw.m_printf Sw.m_write
      (Sw.m_printf, [Sw.m_fprintf, Sw.m_fileno, Sw.m_snprintf, Sw.m_vsnprintf, Sw.m_write, Sw.m_strlen])
      (.given _ (by decide)) (by decide +kernel) rfl (by decide)))⟩

end Minilib

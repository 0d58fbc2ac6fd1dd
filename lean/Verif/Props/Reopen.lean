import Verif.Lemmas.Reopen
/-
C94: streams and the descriptors behind them.
-/

set_option autoImplicit false

namespace Minilib
open Mem Spec

variable {K : FilesK} {fds₀ : List (Option FileEnt)} {s : FilesSt} {a : FState}

/-- The stream in slot `i` has the descriptor `fd`. -/
def _root_.Spec.HasFd (s : FilesSt) (i fd : Nat) : Prop := ∃ c, s.table.cells[i]? = some c ∧ fileno c = BitVec.ofNat 32 fd

theorem hasFd_fdAt {i : Nat} (h : i < s.table.cells.length) : HasFd s i (fdAt s i) := by
  refine ⟨s.table.cell i, ?_, ?_⟩
  · unfold Table.cell
    rw [List.getD_eq_getElem?_getD, List.getElem?_eq_getElem h]
    rfl
  · unfold fdAt
    rw [BitVec.ofNat_toNat, BitVec.setWidth_eq]

theorem hasFd_eq {i fd : Nat} (h : HasFd s i fd) (hlt : fd < 4294967296) : fd = fdAt s i := by
  obtain ⟨c, h1, h2⟩ := h
  unfold fdAt Table.cell
  rw [List.getD_eq_getElem?_getD, h1]
  simp only [Option.getD_some]
  rw [h2, BitVec.toNat_ofNat]
  omega

theorem FInv.slot (I : FInv fds₀ s a) {i : Nat} (hi : i ∈ a.streams.map (·.1)) : i < s.table.cells.length := by
  rw [I.tab.len]; exact Nat.lt_of_lt_of_le (I.tab.below i hi) I.tab.hi

/-- C94 (partial: orderly programs, see `FPre`): after any history of `fopen`, `freopen`, `fdopen`, `fclose`, `open`, `close` and uses
of streams, every further call is defined and succeeds exactly when it should, whatever the kernel refuses. -/
theorem C94_calls_partial (h : FReach K fds₀ s a) {op : FOp} (hp : FPre s a op) :
    ∃ s' ans, fStep K s op = .ok (s', ans) ∧ FOk K s a op ans ∧ (FGoesOn op ans → FReach K fds₀ s' (fNext a op ans)) := by
  obtain ⟨s', ans, e, ok, -⟩ := finv_step (K := K) (finv_reach h) hp
  exact ⟨s', ans, e, ok, fun hg => FReach.step op h hp e hg⟩

/-- C94 (partial: as above): every stream is bound to its own file, by a descriptor no other stream has, nor the program itself; the
standard streams have the descriptors 0, 1 and 2 all the time. -/
theorem C94_state_partial (h : FReach K fds₀ s a) :
    (a.streams.map (·.1)).Nodup ∧
    (∀ i e, (i, e) ∈ a.streams → ∃ fd, fd < 1024 ∧ HasFd s i fd ∧ s.fds.getD fd none = some e ∧ ∀ e', (fd, e') ∉ a.raws) ∧
    (∀ i j fd, i ∈ a.streams.map (·.1) → j ∈ a.streams.map (·.1) → fd < 1024 → HasFd s i fd → HasFd s j fd → i = j) ∧
    (∀ i, i < 3 → i ∈ a.streams.map (·.1) ∧ HasFd s i i) ∧
    (∀ fd e, (fd, e) ∈ a.raws → s.fds.getD fd none = some e) := by
  have I := finv_reach h
  refine ⟨I.tab.nodup, ?_, ?_, ?_, fun fd e hr => (I.rawOk fd e hr).2.2.1⟩
  · intro i e hi
    refine ⟨fdAt s i, I.lt i e hi, hasFd_fdAt (I.slot (List.mem_map.2 ⟨_, hi, rfl⟩)), I.ent i e hi, ?_⟩
    intro e' hr
    exact I.sep i e _ e' hi hr rfl
  · intro i j fd hi hj hlt h1 h2
    obtain ⟨⟨i', e⟩, hi', hh⟩ := List.mem_map.1 hi
    simp only at hh
    subst hh
    obtain ⟨⟨j', e'⟩, hj', hh⟩ := List.mem_map.1 hj
    simp only at hh
    subst hh
    exact I.inj _ _ _ _ hi' hj' ((hasFd_eq h1 (by omega)).symm.trans (hasFd_eq h2 (by omega)))
  · intro i hi
    obtain ⟨e, he⟩ := I.std_mem hi
    have hm : i ∈ a.streams.map (·.1) := List.mem_map.2 ⟨_, he, rfl⟩
    refine ⟨hm, ?_⟩
    have := hasFd_fdAt (I.slot hm)
    rwa [I.std_fd hi] at this

/-- C94 (partial: as above): when only the standard streams are left, the descriptors are those the program started with. -/
theorem C94_closed_partial (h : FReach K fds₀ s a) (hs : ∀ i ∈ a.streams.map (·.1), i < 3) (hr : a.raws = []) :
    ∀ fd, 3 ≤ fd → s.fds.getD fd none = fds₀.getD fd none := by
  have I := finv_reach h
  intro fd h3
  apply I.table fd h3
  · intro i e hi
    have := hs i (List.mem_map.2 ⟨_, hi, rfl⟩)
    rw [I.std_fd this]
    omega
  · intro e he
    rw [hr] at he
    cases he

/-- C94 (partial: as above): `freopen` closes the descriptor of the stream and gives it the lowest unused one: the same number, if
the lower ones are in use; so the output of a program, and of its children, is redirected by reopening stdout.  The file of the
stream is the new one, and all other streams and descriptors are as before.  If the file cannot be opened, or for a mode that is
none, it is NULL; in the first case the descriptor is closed, in the second nothing happens. -/
theorem C94_freopen_partial (h : FReach K fds₀ s a) {name mode : List Byte} (hm : ModeOk mode) {i fd : Nat} (hi : i ∈ a.streams.map (·.1))
    (hlt : fd < 1024) (hfd : HasFd s i fd) :
    ∃ s' r, freopen K s (object 4096 (mode ++ [0#8])) (some name) 4096 i = .ok (s', r) ∧
      ((r = some i ∧ ∃ fl fd', flagsOf mode = some fl ∧ K s.opens name fl = none ∧ HasFd s' i fd' ∧ fd' ≤ fd ∧
        ((∀ j, j < fd → s.fds.getD j none ≠ none) → fd' = fd) ∧ (∀ j, j ≠ fd → j ≠ fd' → s'.fds.getD j none = s.fds.getD j none) ∧
        (fd' ≠ fd → s.fds.getD fd' none = none ∧ s'.fds.getD fd none = none) ∧ s'.fds.getD fd' none = some ⟨name, fl⟩ ∧
        ∀ j, j ≠ i → s'.table.cell j = s.table.cell j) ∨
      (r = none ∧ ((flagsOf mode = none ∧ s' = s) ∨ (∃ fl e, flagsOf mode = some fl ∧ K s.opens name fl = some e ∧
          (∀ j, s'.fds.getD j none = if j = fd then none else s.fds.getD j none) ∧ ∀ j, j ≠ i → s'.table.cell j = s.table.cell j)))) := by
  have I := finv_reach h
  have hfd' := hasFd_eq hfd (by omega)
  subst hfd'
  obtain ⟨s', ans, h1, h2, -, h3, h4⟩ := step_freopen (K := K) (name := name) I hm hi
  unfold fStep at h1
  dsimp only at h1
  cases hr : freopen K s (object 4096 (mode ++ [0#8])) (some name) 4096 i with
  | ub => rw [hr] at h1; cases h1
  | div => rw [hr] at h1; cases h1
  | ok r =>
    rw [hr] at h1
    simp only [Res.ok_bind, Res.pure_eq, Res.ok.injEq, Prod.mk.injEq] at h1
    obtain ⟨rfl, rfl⟩ := h1
    obtain ⟨s', r⟩ := r
    dsimp only at *
    rcases h2 with ⟨fl, g1, g2, g3⟩ | ⟨g1, g2⟩
    · obtain ⟨f1, f2, f3⟩ := h4 g1
      have f3 := f3 fl g2
      injection g1 with g1
      subst g1
      refine ⟨s', some i, rfl, Or.inl ⟨rfl, fl, fdAt s' i, g2, g3, ?_, ?_, ?_, ?_, ?_, ?_, f2⟩⟩
      · apply hasFd_fdAt
        have hl := I.slot hi
        unfold freopen fopenGen at hr
        rw [mode_eq hm, g2] at hr
        simp only [Res.ok_bind, get_cell hl, Res.pure_eq, fillCell, setCell, Res.ok.injEq, Prod.mk.injEq] at hr
        rw [← hr.1]
        simp only [List.length_set]
        rw [show (sysOpen K (sysClose s (fileno (s.table.cell i))).1 name fl).1.table = s.table by
          unfold sysOpen sysClose
          split <;> split <;> (try split) <;> rfl]
        exact hl
      · rw [f1]
        apply fdLowest_le
        rw [fdPut_getD, if_pos rfl]
      · intro hall
        rw [f1]
        refine Nat.le_antisymm (fdLowest_le (by rw [fdPut_getD, if_pos rfl])) ?_
        refine Decidable.byContradiction fun hc => ?_
        have hn := fdLowest_none (fdPut s.fds (fdAt s i) none)
        rw [fdPut_getD, if_neg (by omega)] at hn
        exact hall _ (by omega) hn
      · intro j j1 j2
        rw [f3, fdPut_getD, if_neg j2, fdPut_getD, if_neg j1]
      · intro hne
        constructor
        · have hn := fdLowest_none (fdPut s.fds (fdAt s i) none)
          rw [← f1, fdPut_getD, if_neg hne] at hn
          exact hn
        · rw [f3, fdPut_getD, if_neg (Ne.symm hne), fdPut_getD, if_pos rfl]
      · rw [f3, fdPut_getD, if_pos rfl]
    · injection g1 with g1
      subst g1
      refine ⟨s', none, rfl, Or.inr ⟨rfl, ?_⟩⟩
      cases hfl : flagsOf mode with
      | none =>
        left
        refine ⟨rfl, ?_⟩
        unfold freopen fopenGen at hr
        rw [mode_eq hm, hfl] at hr
        simp only [Res.ok_bind, Res.pure_eq, Res.ok.injEq, Prod.mk.injEq] at hr
        exact hr.1.symm
      | some fl =>
        right
        obtain ⟨f1, f2⟩ := h3 rfl fl hfl
        cases hK : K s.opens name fl with
        | none => exact absurd hK (g2 fl hfl)
        | some e =>
          refine ⟨fl, e, rfl, hK, ?_, f2⟩
          intro j
          rw [f1, fdPut_getD]

/-! ### What fails -/

/-- C94, for `freopen` without a name: the stream stays on its file. -/
def C94_null_full : Prop := ∀ (K : FilesK) (fds₀ : List (Option FileEnt)) (s : FilesSt) (a : FState) (mode : List Byte) (i : Nat) (e : FileEnt),
  FReach K fds₀ s a → ModeOk mode → flagsOf mode ≠ none → (i, e) ∈ a.streams →
  ∃ s' fd e', freopen K s (object 4096 (mode ++ [0#8])) none 4096 i = .ok (s', some i) ∧ HasFd s' i fd ∧ fd < 1024 ∧
    s'.fds.getD fd none = some e' ∧ e'.name = e.name

/-- Three files, the standard streams. -/
def stdFiles : List (Option FileEnt) := [some ⟨[97#8], 0#32⟩, some ⟨[98#8], 1#32⟩, some ⟨[99#8], 1#32⟩]

theorem std_reach (K : FilesK) : FReach K stdFiles ⟨Table.init, stdFiles, 0, 0⟩
    ⟨[(2, ⟨[99#8], 1#32⟩), (1, ⟨[98#8], 1#32⟩), (0, ⟨[97#8], 0#32⟩)], []⟩ := .init 0 rfl rfl rfl

/-- It fails: freopen(NULL,"w",stdout) closes stdout and answers a stream, which is stdin. -/
theorem C94_null_refuted : ¬ C94_null_full := by
  intro h
  obtain ⟨s', fd, e', h1, h2, h3, h4, h5⟩ := h (fun _ _ _ => none) _ _ _ [119#8] 1 ⟨[98#8], 1#32⟩ (std_reach _) (by decide) (by decide) (by decide)
  have hc : freopen (fun _ _ _ => none) ⟨Table.init, stdFiles, 0, 0⟩ (object 4096 ([119#8] ++ [0#8])) none 4096 1 =
      .ok (⟨⟨[0#32, 0#32, 2#32] ++ List.replicate 13 0#32, 3⟩, [some ⟨[97#8], 0#32⟩, none, some ⟨[99#8], 1#32⟩], 0, 0⟩, some 1) := by
    unfold freopen fopenGen
    rw [mode_eq (mode := [119#8]) (by decide)]
    rfl
  rw [hc] at h1
  injection h1 with h1
  injection h1 with h1 _
  subst h1
  have := hasFd_eq h2 (by omega)
  subst this
  change some (⟨[97#8], 0#32⟩ : FileEnt) = some e' at h4
  injection h4 with h4
  subst h4
  exact absurd h5 (by decide)

/-- C94, for `fdopen`: it fails for a descriptor that is not open. -/
def C94_fdopen_full : Prop := ∀ (K : FilesK) (fds₀ : List (Option FileEnt)) (s : FilesSt) (a : FState) (mode : List Byte) (fd : Nat),
  FReach K fds₀ s a → ModeOk mode → fd < 1024 → s.fds.getD fd none = none →
  ∃ s', fdopen K s (object 4096 (mode ++ [0#8])) (BitVec.ofNat 32 fd) 4096 = .ok (s', none)

/-- It does not: any number is taken. -/
theorem C94_fdopen_refuted : ¬ C94_fdopen_full := by
  intro h
  obtain ⟨s', h1⟩ := h (fun _ _ _ => none) _ _ _ [114#8] 7 (std_reach _) (by decide) (by decide) rfl
  unfold fdopen fopenGen at h1
  rw [mode_eq (mode := [114#8]) (by decide)] at h1
  cases h1

/-! ### Examples -/

/-- Reopening stdout: the descriptor is 1 again, and its file the new one. -/
example : ∃ s' fd', freopen (fun _ _ _ => none) ⟨Table.init, stdFiles, 0, 0⟩ (object 4096 ([119#8] ++ [0#8])) (some [120#8]) 4096 1 = .ok (s', some 1) ∧
    HasFd s' 1 fd' ∧ fd' = 1 ∧ s'.fds.getD fd' none = some ⟨[120#8], O_WRONLY ||| O_CREAT ||| O_TRUNC⟩ := by
  obtain ⟨s', r, h1, h2 | h2⟩ := C94_freopen_partial (std_reach (fun _ _ _ => none)) (name := [120#8]) (mode := [119#8]) (by decide) (i := 1) (fd := 1)
    (by decide) (by decide) ⟨1#32, rfl, by decide⟩
  · obtain ⟨rfl, fl, fd', g1, g2, g3, g4, g5, g6, g7, g8, g9⟩ := h2
    have : fl = O_WRONLY ||| O_CREAT ||| O_TRUNC := by
      rw [show flagsOf [119#8] = some (O_WRONLY ||| O_CREAT ||| O_TRUNC) by decide] at g1
      injection g1 with g1
      exact g1.symm
    subst this
    exact ⟨s', fd', h1, g3, g5 (by intro j hj; have : j = 0 := by omega
                                   subst this; decide), g8⟩
  · obtain ⟨-, ⟨h2, -⟩ | ⟨fl, e, -, h2, -⟩⟩ := h2
    · exact absurd h2 (by decide)
    · cases h2

/-- Opening two files and closing them; the descriptors in between. -/
example : ∃ s a, FReach (fun _ _ _ => none) stdFiles s a ∧ (3, ⟨[120#8], 0#32⟩) ∈ a.streams ∧ HasFd s 3 3 := by
  have h1 := FReach.step (.fopen [120#8] [114#8]) (std_reach (fun _ _ _ => none)) (s' := ⟨⟨[0#32, 1#32, 2#32, 3#32] ++ List.replicate 12 0#32, 4⟩,
    stdFiles ++ [some ⟨[120#8], 0#32⟩], 0, 1⟩) (ans := .stream (some 3)) ⟨by decide, by decide⟩ (by
      unfold fStep fopenF fopenGen
      dsimp only
      rw [mode_eq (mode := [114#8]) (by decide)]
      rfl) trivial
  exact ⟨_, _, h1, by decide, ⟨3#32, rfl, by decide⟩⟩

/-- C94: the state after the start: `fopen` of a file is answered; stream 2 has descriptor 2; the others are as they were. -/
example : (∃ s' ans, fStep (fun _ _ _ => none) ⟨Table.init, stdFiles, 0, 0⟩ (.fopen [120#8] [114#8]) = .ok (s', ans)) ∧
    HasFd ⟨Table.init, stdFiles, 0, 0⟩ 2 2 := by
  have h := std_reach (fun _ _ _ => none)
  obtain ⟨s', ans, e, -⟩ := C94_calls_partial h (op := .fopen [120#8] [114#8]) ⟨by decide, by decide⟩
  exact ⟨⟨s', ans, e⟩, ((C94_state_partial h).2.2.2.1 2 (by decide)).2⟩

example : ∀ fd, 3 ≤ fd → stdFiles.getD fd none = stdFiles.getD fd none :=
  C94_closed_partial (s := ⟨Table.init, stdFiles, 0, 0⟩) (std_reach (fun _ _ _ => none)) (by decide) rfl

end Minilib

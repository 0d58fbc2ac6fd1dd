import Verif.Lemmas.Opendir
import Verif.Props.Malloc
import Verif.Props.Dir
/-
C93: directory streams in the memory of the program, as many as wanted, among the other blocks of the program.
-/

set_option autoImplicit false

namespace Minilib
open Mem Spec

variable {A : Arena} {m₀ : Mem} {K : DirsK} {fds₀ : List (Option FdEnt)} {s : DirsSt} {a : DState}

/-- C93: after any history of a correct program, with any number of streams and blocks, every further call is defined and gives
the right answer, whatever the kernel delivers per call: each stream has a position of its own, which no other call changes. -/
theorem C93_streams (hA : A.Ok m₀) (hK : DirsOk K) (h : DReach A m₀ K fds₀ s a) {op : DOp} (hp : DPre a op) :
    ∃ s' ans, dStep A K s op = .ok (s', ans) ∧ DOk K (∃ e, K.cut s.calls = .inl e) a op ans ∧ DReach A m₀ K fds₀ s' (dNext a op ans) := by
  obtain ⟨fdOf, live, sh, I⟩ := dinv_reach hA hK h
  obtain ⟨s', ans, _, _, _, e, ok, -⟩ := dinv_step hA hK I hp
  exact ⟨s', ans, e, ok, DReach.step op h hp e⟩

/-- C93: after any history the blocks of the program hold what was stored there, and the record each stream delivered last is still
unchanged in its buffer, whatever has been done with other streams; streams and blocks are pairwise apart, and in the arena. -/
theorem C93_state (hA : A.Ok m₀) (hK : DirsOk K) (h : DReach A m₀ K fds₀ s a) :
    (∀ q n i b, (q, n) ∈ a.blocks → i < n → a.shadow (q + i) = some b → s.heap.mem (q + i) = some b) ∧
    (∀ p st q r, (p, st) ∈ a.streams → st.last = some (q, r) → s.heap.mem.Holds q r ∧ p ≤ q ∧ q + r.length ≤ p + 2072) ∧
    (a.streams.map (·.1)).Nodup ∧
    (∀ p st p' st', (p, st) ∈ a.streams → (p', st') ∈ a.streams → p ≠ p' → p + 2072 ≤ p' ∨ p' + 2072 ≤ p) ∧
    (∀ p st q n, (p, st) ∈ a.streams → (q, n) ∈ a.blocks → p + 2072 ≤ q ∨ q + n ≤ p) ∧
    (∀ p st, (p, st) ∈ a.streams → p ≠ 0 ∧ A.base ≤ p ∧ p + 2072 ≤ A.base + A.size) := by
  obtain ⟨fdOf, live, sh, I⟩ := dinv_reach hA hK h
  refine ⟨I.shadow, ?_, ?_, ?_, ?_, ?_⟩
  · intro p st q r hp hl
    obtain ⟨d, e, -, -, -, hlast⟩ := I.strm p st hp
    obtain ⟨h1, h2, h3⟩ := hlast q r hl
    exact ⟨h1, by omega, h3⟩
  · exact (List.nodup_append.1 (I.keys hA)).1
  · intro p st p' st' h1 h2 hne
    exact live_disj hA I.reach (I.liveStream h1) (I.liveStream h2) hne
  · intro p st q n h1 h2
    exact live_disj hA I.reach (I.liveStream h1) (I.liveBlock h2) (I.apart hA h1 h2)
  · intro p st h1
    have hr := (C17_history hA I.reach).2.2.1 p 2072 (I.liveStream h1)
    have := hA.size4
    dsimp only at hr
    omega

/-- C93: `opendir` gives a stream exactly when the arena has 2076 bytes and 64 more, the kernel does not refuse, the directory is
there and a descriptor below 1024 is unused.  Else nothing is lost: memory, descriptors and streams are as before, and `errno` says
why, if it is not the memory. -/
theorem C93_open (hA : A.Ok m₀) (hK : DirsOk K) (h : DReach A m₀ K fds₀ s a) (name : List Byte) :
    ∃ s' p, opendir A K s name = .ok (s', p) ∧
      (p ≠ 0 ↔ 2140 ≤ s.heap.mbufsize ∧ K.refuse s.opens = none ∧ K.dir name ≠ none ∧ ∃ i, i < 1024 ∧ s.fds.getD i none = none) ∧
      (p = 0 → s'.heap.mbufsize = s.heap.mbufsize ∧ s'.fds = s.fds ∧ DReach A m₀ K fds₀ s' a ∧
        (2140 ≤ s.heap.mbufsize → s'.errno = match K.refuse s.opens with
          | some e => e
          | none => if K.dir name = none then 2 else 24)) := by
  obtain ⟨fdOf, live, sh, I⟩ := dinv_reach hA hK h
  have hlow : (∃ i, i < 1024 ∧ s.fds.getD i none = none) ↔ fdLowest s.fds < 1024 := by
    constructor
    · rintro ⟨i, hi, h0⟩
      exact Nat.lt_of_le_of_lt (fdLowest_le h0) hi
    · intro hl
      exact ⟨_, hl, fdLowest_none _⟩
  have hneed : (need 2072 : Int) + 64 = 2140 := by decide
  rcases step_opendir hA I name with ⟨s', sh', e, h1, h2, I', h3⟩ | ⟨s', p, fdOf', live', sh', e, hp, hd, h1, h2, h3, I'⟩
  · refine ⟨s', 0, e, ⟨fun h => absurd rfl h, ?_⟩, fun _ => ⟨h1, h2, ?_, ?_⟩⟩
    · rintro ⟨g1, g2, g3, g4⟩
      rw [hlow] at g4
      rcases h3 with h3 | ⟨e, h3, -⟩ | ⟨-, h3, -⟩ | ⟨-, -, h3, -⟩
      · omega
      · rw [g2] at h3; cases h3
      · exact absurd h3 g3
      · omega
    · refine DReach.step (.opendir name) (ans := .ptr 0) h trivial ?_
      show (do let r ← opendir A K s name; pure (r.1, DAns.ptr r.2)) = _
      rw [e]; rfl
    · intro hge
      rcases h3 with h3 | ⟨e, h3, h4⟩ | ⟨h3, h4, h5⟩ | ⟨h3, h4, -, h5⟩
      · omega
      · rw [h3]; exact h4
      · rw [h3]; simp only [h4, if_true]; exact h5
      · rw [h3]; simp only [h4, if_false]; exact h5
  · refine ⟨s', p, e, ⟨fun _ => ⟨by omega, h2, hd, hlow.2 h3⟩, fun _ => hp⟩, fun h0 => absurd h0 hp⟩

/-- C93: when the streams are closed the descriptors are those the program started with; when its blocks are freed as well, so is
the memory: nothing leaks, however often and in what order streams have been opened and closed. -/
theorem C93_closed (hA : A.Ok m₀) (hK : DirsOk K) (h : DReach A m₀ K fds₀ s a) (hs : a.streams = []) :
    (∀ i, s.fds.getD i none = fds₀.getD i none) ∧ (a.blocks = [] → s.heap.mbufsize = (Heap.init A m₀).mbufsize) := by
  obtain ⟨fdOf, live, sh, I⟩ := dinv_reach hA hK h
  constructor
  · intro i
    apply I.table
    intro p st hp
    rw [hs] at hp; cases hp
  · intro hb
    have hl : live = [] := by
      have := I.perm
      rw [hs, hb] at this
      exact this.eq_nil
    subst hl
    exact (C19_all_freed hA I.reach rfl).1

/-- C93: `dirfd` gives the descriptor of the stream: it is open on its directory, was not in use at the start of the program, and
no other stream has it. -/
theorem C93_dirfd (hA : A.Ok m₀) (hK : DirsOk K) (h : DReach A m₀ K fds₀ s a) :
    ∃ fdOf : Nat → Nat, (∀ p st, (p, st) ∈ a.streams → dirfd s p = .ok (fdOf p) ∧ fdOf p < 1024 ∧ fds₀.getD (fdOf p) none = none ∧
        ∃ pos, s.fds.getD (fdOf p) none = some (.dir st.name pos)) ∧
      ∀ p st p' st', (p, st) ∈ a.streams → (p', st') ∈ a.streams → fdOf p = fdOf p' → p = p' := by
  obtain ⟨fdOf, live, sh, I⟩ := dinv_reach hA hK h
  refine ⟨fdOf, ?_, I.inj⟩
  intro p st hp
  obtain ⟨d, e, rep, he, hat, -⟩ := I.strm p st hp
  refine ⟨?_, rep.fdlt, I.fresh p st hp, _, rep.ent⟩
  unfold dirfd
  rw [loadW_eq rep.fdw, Res.ok_bind, fd_toInt (by have := rep.fdlt; omega)]
  rfl

/-- C93: where the program closed the descriptor of a stream by itself, `closedir` says so (EBADF, 9), and leaves the descriptors as they are; the
memory of the stream is released all the same, i.e. the call must not be tried again. -/
theorem C93_close_error (hA : A.Ok m₀) (hK : DirsOk K) (h : DReach A m₀ K fds₀ s a) {p fd : Nat} {st : DStream} (hp : (p, st) ∈ a.streams)
    (hfd : dirfd s p = .ok fd) :
    ∃ h', free A s.heap p = .ok h' ∧
      closedir A (closeFd s fd).1 p = .ok ({ s with fds := fdPut s.fds fd none, errno := 9, heap := h' }, -1) := by
  obtain ⟨fdOf, live, sh, I⟩ := dinv_reach hA hK h
  obtain ⟨d, e, rep, he, hat, -⟩ := I.strm p st hp
  obtain ⟨h', hf⟩ := (C17_history hA I.reach).2.1 p 2072 (I.liveStream hp)
  unfold dirfd at hfd
  rw [loadW_eq rep.fdw, Res.ok_bind, fd_toInt (by have := rep.fdlt; omega)] at hfd
  have e1 : fd = fdOf p := by
    have := Res.ok.inj hfd
    omega
  subst e1
  have e2 : closeFd s (fdOf p : Nat) = ({ s with fds := fdPut s.fds (fdOf p) none }, 0) := by
    unfold closeFd
    rw [fdGet_nat, rep.ent]
    simp
  refine ⟨h', hf, ?_⟩
  rw [e2]
  unfold closedir
  rw [loadW_eq rep.fdw, Res.ok_bind, fd_toInt (by have := rep.fdlt; omega)]
  unfold closeFd
  rw [fdGet_nat, fdPut_getD, if_pos rfl]
  simp only at hf ⊢
  rw [hf]
  rfl

/-! ### Examples: a directory "d", and an arena of 8192 bytes. -/

def dirsEx : DirsK := ⟨fun n => if n = [100#8] then some (dir2.es, dir2.ck) else none, fun _ => .inr 0, fun _ => none⟩

theorem dirsEx_ok : DirsOk dirsEx := by
  intro name e h
  simp only [dirsEx] at h
  split at h
  · injection h with h
    subst h
    refine ⟨dir2_good, by decide⟩
  · cases h

def dirsArena : Arena := ⟨4096, 8192⟩
def dirsMem : Mem := fun a => if 4096 ≤ a ∧ a < 12288 then some 0#8 else none

theorem dirsArena_ok : dirsArena.Ok dirsMem := by
  refine ⟨by decide, by decide, by decide, by decide, by decide, ?_⟩
  intro i hi
  refine ⟨0#8, if_pos ?_⟩
  simp only [dirsArena] at hi ⊢; omega

/-- A first `opendir` succeeds, one of an unknown directory does not. -/
example : ∃ s p, opendir dirsArena dirsEx ⟨Heap.init dirsArena dirsMem, [some .other], 0, 0, 0⟩ [100#8] = .ok (s, p) ∧ p ≠ 0 := by
  obtain ⟨s, p, h1, h2, -⟩ := C93_open dirsArena_ok dirsEx_ok (DReach.init (fds₀ := [some .other]) 0) [100#8]
  exact ⟨s, p, h1, h2.2 ⟨by decide, rfl, by decide, 1, by decide, rfl⟩⟩

example : ∃ s, opendir dirsArena dirsEx ⟨Heap.init dirsArena dirsMem, [some .other], 0, 0, 0⟩ [101#8] = .ok (s, 0) ∧ s.errno = 2 := by
  obtain ⟨s, p, h1, h2, h3⟩ := C93_open dirsArena_ok dirsEx_ok (DReach.init (fds₀ := [some .other]) 0) [101#8]
  have h0 : p = 0 := Decidable.byContradiction fun h => (h2.1 h).2.2.1 rfl
  subst h0
  exact ⟨s, h1, (h3 rfl).2.2.2 (by decide)⟩

/-- Reading: the first record, and after it the second one. -/
example : ∃ s a p, DReach dirsArena dirsMem dirsEx [some .other] s a ∧ (p, ⟨[100#8], 0, none⟩) ∈ a.streams ∧
    ∃ s' q, dStep dirsArena dirsEx s (.readdir p) = .ok (s', .entry (some (q, dir2.es[0]))) := by
  obtain ⟨s, p, h1, h2, -⟩ := C93_open dirsArena_ok dirsEx_ok (DReach.init (fds₀ := [some .other]) 0) [100#8]
  have hp := h2.2 ⟨by decide, rfl, by decide, 1, by decide, rfl⟩
  have r1 : DReach dirsArena dirsMem dirsEx [some .other] s ⟨[(p, ⟨[100#8], 0, none⟩)], [], fun _ => none⟩ := by
    have := DReach.step (.opendir [100#8]) (ans := .ptr p) (s' := s) (DReach.init (A := dirsArena) (m₀ := dirsMem) (K := dirsEx) (fds₀ := [some .other]) 0)
      trivial (by
        show (do let r ← opendir dirsArena dirsEx _ _; pure (r.1, DAns.ptr r.2)) = _
        rw [h1]; rfl)
    rwa [show dNext _ (.opendir [100#8]) (.ptr p) = _ from if_neg hp] at this
  refine ⟨s, _, p, r1, List.mem_cons_self, ?_⟩
  obtain ⟨s', ans, e, ok, -⟩ := C93_streams dirsArena_ok dirsEx_ok r1 (op := .readdir p) ⟨_, List.mem_cons_self⟩
  obtain ⟨es, ck, g1, g2⟩ := ok _ List.mem_cons_self
  rw [show dirsEx.dir [100#8] = some (dir2.es, dir2.ck) from rfl] at g1
  injection g1 with g1
  injection g1 with g1 g1'
  subst g1
  rcases g2 with ⟨q, r, rfl, g3, -⟩ | ⟨-, g3 | ⟨e, g3⟩⟩
  · refine ⟨s', q, ?_⟩
    rw [show dir2.es[0]? = some dir2.es[0] from rfl] at g3
    injection g3 with g3
    rw [e, g3]
  · cases g3
  · cases g3

/-- C93: one open directory: where it is, its descriptor; and with none the table is as at the start. -/
example : (∃ s a p fd, DReach dirsArena dirsMem dirsEx [some .other] s a ∧ (p, ⟨[100#8], 0, none⟩) ∈ a.streams ∧ p ≠ 0 ∧
      dirfd s p = .ok fd ∧ fd ≠ 0) ∧
    ∀ i, (⟨Heap.init dirsArena dirsMem, [some .other], 0, 0, 0⟩ : DirsSt).fds.getD i none = [some FdEnt.other].getD i none := by
  refine ⟨?_, (C93_closed dirsArena_ok dirsEx_ok (DReach.init (fds₀ := [some .other]) 0) rfl).1⟩
  obtain ⟨s, p, h1, h2, -⟩ := C93_open dirsArena_ok dirsEx_ok (DReach.init (fds₀ := [some .other]) 0) [100#8]
  have hp := h2.2 ⟨by decide, rfl, by decide, 1, by decide, rfl⟩
  have r1 : DReach dirsArena dirsMem dirsEx [some .other] s ⟨[(p, ⟨[100#8], 0, none⟩)], [], fun _ => none⟩ := by
    have := DReach.step (.opendir [100#8]) (ans := .ptr p) (s' := s) (DReach.init (A := dirsArena) (m₀ := dirsMem) (K := dirsEx) (fds₀ := [some .other]) 0)
      trivial (by
        show (do let r ← opendir dirsArena dirsEx _ _; pure (r.1, DAns.ptr r.2)) = _
        rw [h1]; rfl)
    rwa [show dNext _ (.opendir [100#8]) (.ptr p) = _ from if_neg hp] at this
  obtain ⟨fdOf, h3, -⟩ := C93_dirfd dirsArena_ok dirsEx_ok r1
  obtain ⟨a1, -, a2, -⟩ := h3 p _ List.mem_cons_self
  refine ⟨s, _, p, fdOf p, r1, List.mem_cons_self, ((C93_state dirsArena_ok dirsEx_ok r1).2.2.2.2.2 p _ List.mem_cons_self).1, a1, ?_⟩
  intro h0
  rw [show fdOf p = 0 by omega] at a2
  cases a2

/-- C93: one open directory whose descriptor the program closes. -/
example : ∃ s s' p fd, dirfd s p = .ok fd ∧ closedir dirsArena (closeFd s fd).1 p = .ok (s', -1) ∧ s'.errno = 9 := by
  obtain ⟨s, p, h1, h2, -⟩ := C93_open dirsArena_ok dirsEx_ok (DReach.init (fds₀ := [some .other]) 0) [100#8]
  have hp := h2.2 ⟨by decide, rfl, by decide, 1, by decide, rfl⟩
  have r1 : DReach dirsArena dirsMem dirsEx [some .other] s ⟨[(p, ⟨[100#8], 0, none⟩)], [], fun _ => none⟩ := by
    have := DReach.step (.opendir [100#8]) (ans := .ptr p) (s' := s) (DReach.init (A := dirsArena) (m₀ := dirsMem) (K := dirsEx) (fds₀ := [some .other]) 0)
      trivial (by
        show (do let r ← opendir dirsArena dirsEx _ _; pure (r.1, DAns.ptr r.2)) = _
        rw [h1]; rfl)
    rwa [show dNext _ (.opendir [100#8]) (.ptr p) = _ from if_neg hp] at this
  obtain ⟨fdOf, h3, -⟩ := C93_dirfd dirsArena_ok dirsEx_ok r1
  obtain ⟨a1, -⟩ := h3 p _ List.mem_cons_self
  obtain ⟨h', -, e⟩ := C93_close_error dirsArena_ok dirsEx_ok r1 List.mem_cons_self a1
  exact ⟨s, _, p, _, a1, e, rfl⟩

end Minilib

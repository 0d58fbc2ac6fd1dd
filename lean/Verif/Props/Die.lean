import Verif.Model.Die
import Verif.Props.Process
/-
C95: messages with an end: die, dief, dies, _die, die_if, dief_if, dies_if, error, err, errx, warn.
-/

set_option autoImplicit false

namespace Minilib
open Mem Spec

/-! ### die and dies -/

/-- C95, full statement for `die`: without /bin/errno the message and the number are on two lines of standard error, and the status tells of failure. -/
def C95_die_full : Prop :=
  ∀ (K : WKernel) (m : Mem) (w : Writes) (e : Nat) (errnum : Int) (msg : Nat) (text : List Byte), Accepting K → -199 ≤ errnum → errnum ≤ 199 →
    m.Mapped e 5 → m.IsStr msg (text ++ [10#8]) →
    ∃ m' w' st, die K m w e false errnum msg text.length = .ok (.exited m' w' st) ∧ st ≠ 0 ∧
      delivered 2 w' = delivered 2 w ++ text ++ [10#8] ++ errnoLine errnum.natAbs

theorem die_eq {K : WKernel} {m : Mem} {w : Writes} {e : Nat} {hasErrno : Bool} {errnum : Int} {msg : Nat} {text : List Byte} (hK : Accepting K)
    (hs : m.IsStr msg (text ++ [10#8])) :
    die K m w e hasErrno errnum msg text.length = exit_errno K m (w ++ [(2, text ++ [10#8, 0#8])]) e hasErrno errnum := by
  unfold die
  rw [(C88_writes_refuted (K := K) (m := m) (w := w) (fd := 2) (p := msg) (s := text) hK).2 hs]
  rfl

/-- C95 (partial: up to NUL bytes, and the number must not be 0 for a status of failure): `die(errnum, msg)` writes the message on a line of standard
error, then, without /bin/errno, the line with the number, nothing elsewhere, and the status is the number. -/
theorem C95_die_partial {K : WKernel} {m : Mem} (w : Writes) {e : Nat} {errnum : Int} {msg : Nat} {text : List Byte} (hK : Accepting K)
    (h1 : -199 ≤ errnum) (h2 : errnum ≤ 199) (hm : m.Mapped e 5) (hs : m.IsStr msg (text ++ [10#8])) :
    ∃ m' w' rest, die K m w e false errnum msg text.length = .ok (.exited m' w' errnum.natAbs) ∧
      delivered 2 w' = delivered 2 w ++ (text ++ [10#8] ++ rest) ∧ rest.filter (· ≠ 0#8) = errnoLine errnum.natAbs ∧
      (∀ fd, fd ≠ 2 → delivered fd w' = delivered fd w) ∧ (errnum ≠ 0 → errnum.natAbs ≠ 0) := by
  obtain ⟨m', w', said, h, hd, hf, ho, -⟩ := C82_exit_errno_partial K m (w ++ [(2, text ++ [10#8, 0#8])]) e errnum hK h1 h2 hm
  refine ⟨m', w', 0#8 :: said, by rw [die_eq hK hs, h], ?_, ?_, fun fd hfd => ?_, by omega⟩
  · rw [hd, delivered_one, if_pos rfl]; simp
  · rw [List.filter_cons_of_neg (by decide), hf]
  · rw [ho fd hfd, delivered_one, if_neg hfd, List.append_nil]

/-- C95: with /bin/errno, the message has been written (with the newline and a NUL) when the process becomes that program with the digits of the number. -/
theorem C95_die_exec {K : WKernel} {m : Mem} (w : Writes) {e : Nat} {errnum : Int} {msg : Nat} {text : List Byte} (hK : Accepting K)
    (h1 : -199 ≤ errnum) (h2 : errnum ≤ 199) (hm : m.Mapped e 5) (hs : m.IsStr msg (text ++ [10#8])) :
    ∃ m' w' p, die K m w e true errnum msg text.length = .ok (.exec m' w' (textBytes "/bin/errno") p) ∧
      delivered 2 w' = delivered 2 w ++ (text ++ [10#8, 0#8]) ∧ m'.IsStr p (errnoDigits errnum.natAbs) := by
  obtain ⟨m', p, h, hp⟩ := C82_exit_errno_exec K m (w ++ [(2, text ++ [10#8, 0#8])]) e errnum h1 h2 hm
  exact ⟨m', _, p, by rw [die_eq hK hs, h], by rw [delivered_one, if_pos rfl], hp⟩

/-- C95: `die(0, msg)` reports success. -/
theorem C95_die_success_refuted {K : WKernel} {m : Mem} (w : Writes) {e : Nat} {msg : Nat} {text : List Byte} (hK : Accepting K)
    (hm : m.Mapped e 5) (hs : m.IsStr msg (text ++ [10#8])) :
    ∃ m' w', die K m w e false 0 msg text.length = .ok (.exited m' w' 0) := by
  obtain ⟨m', w', -, h, -⟩ := C95_die_partial (errnum := 0) w hK (by omega) (by omega) hm hs
  exact ⟨m', w', h⟩

/-- C95: a NUL follows the newline of the message, always. -/
theorem C95_die_nul_refuted {K : WKernel} {m : Mem} (w : Writes) {e : Nat} {errnum : Int} {msg : Nat} {text : List Byte} (hK : Accepting K)
    (h1 : -199 ≤ errnum) (h2 : errnum ≤ 199) (hm : m.Mapped e 5) (hs : m.IsStr msg (text ++ [10#8])) :
    ∃ m' w' rest, die K m w e false errnum msg text.length = .ok (.exited m' w' errnum.natAbs) ∧
      delivered 2 w' = delivered 2 w ++ (text ++ [10#8, 0#8] ++ rest) := by
  obtain ⟨m', w', said, h, hd, -⟩ := C82_exit_errno_partial K m (w ++ [(2, text ++ [10#8, 0#8])]) e errnum hK h1 h2 hm
  exact ⟨m', w', said, by rw [die_eq hK hs, h], by rw [hd, delivered_one, if_pos rfl, List.append_assoc]⟩

/-- The literal "ab\n" and the buffer of errno_str. -/
def dieMem : Mem := objects [(16, [97#8, 98#8, 10#8, 0#8]), (100, List.replicate 5 1#8)]

theorem dieMem_str : dieMem.IsStr 16 ([97#8, 98#8] ++ [10#8]) := by unfold Mem.IsStr Mem.Holds; decide +kernel

/-- C95 fails. -/
theorem C95_die_refuted : ¬ C95_die_full := by
  intro h
  obtain ⟨m1, w1, st, h1, h2, -⟩ := h (fun _ _ l => l.length) dieMem [] 100 0 16 [97#8, 98#8] (fun _ _ _ => rfl) (by decide) (by decide) (by decide +kernel)
    dieMem_str
  obtain ⟨m2, w2, h3⟩ := C95_die_success_refuted (K := fun _ _ l => l.length) (m := dieMem) (e := 100) (msg := 16) (text := [97#8, 98#8]) []
    (fun _ _ _ => rfl) (by decide +kernel) dieMem_str
  rw [h3] at h1
  injection Res.ok.inj h1 with _ _ h5
  exact h2 h5.symm

/-- `die(2, "ab")`: "ab", then "Error, errno: 02", on lines with NULs among them, and the status 2. -/
example : ∃ m' w', die (fun _ _ l => l.length) dieMem [] 100 false 2 16 2 = .ok (.exited m' w' 2) ∧
    (delivered 2 w').filter (· ≠ 0#8) = textBytes "ab\nError, errno: 02\n" := by
  obtain ⟨m', w', rest, h, h2, h3, -⟩ := C95_die_partial (K := fun _ _ l => l.length) (m := dieMem) [] (e := 100) (errnum := 2) (msg := 16)
    (text := [97#8, 98#8]) (fun _ _ _ => rfl) (by decide) (by decide) (by decide +kernel) dieMem_str
  exact ⟨m', w', h, by rw [h2, show delivered 2 [] = [] from rfl, List.nil_append, List.filter_append, h3]; decide +kernel⟩

/-- C95 (partial: up to NUL bytes behind the message): `dies(errnum, …)` writes its strings on a line of standard error, then the line with the number,
nothing elsewhere, and the status is the number. -/
theorem C95_dies_partial {K : WKernel} {m : Mem} (w : Writes) {e : Nat} {errnum : Int} {nl : Nat} {ps : List Nat} {ss : List (List Byte)}
    (hK : Accepting K) (h1 : -199 ≤ errnum) (h2 : errnum ≤ 199) (hm : m.Mapped e 5) (ha : AllStr m ps ss) (hnl : m.IsStr nl [10#8]) (hz : nl ≠ 0)
    (h0 : ∀ p ∈ ps, p ≠ 0) (hn : ps.length < 523999) (hl : ss.flatten.length < 2147483647) :
    ∃ m' w' rest, dies K m w e false errnum nl ps = .ok (.exited m' w' errnum.natAbs) ∧
      delivered 2 w' = delivered 2 w ++ (ss.flatten ++ [10#8] ++ rest) ∧ rest.filter (· ≠ 0#8) = errnoLine errnum.natAbs ∧
      ∀ fd, fd ≠ 2 → delivered fd w' = delivered fd w := by
  obtain ⟨w1, hp, hd1⟩ := C88_printsl (K := K) (fd := 2) hK ha hnl hz h0 hn hl w
  obtain ⟨m', w', said, h, hd, hf, ho, -⟩ := C82_exit_errno_partial K m w1 e errnum hK h1 h2 hm
  refine ⟨m', w', said, ?_, ?_, hf, fun fd hfd => ?_⟩
  · unfold dies; rw [hp, Res.ok_bind]; exact h
  · rw [hd, hd1 2, if_pos rfl, List.append_assoc]
  · rw [ho fd hfd, hd1 fd, if_neg hfd, List.append_nil]

/-- C95: `_die()` ends with the line and the status of errno when it is set, silently with status 255 when it is not (or not compiled in). -/
theorem C95_die_errno_partial (K : WKernel) (m : Mem) (w : Writes) (e : Nat) (errno : Option Int) (hK : Accepting K)
    (h1 : -199 ≤ errno.getD 0) (h2 : errno.getD 0 ≤ 199) (hm : m.Mapped e 5) :
    ∃ m' w' st said, die_ K m w e false errno = .ok (.exited m' w' st) ∧ st ≠ 0 ∧ delivered 2 w' = delivered 2 w ++ said ∧
      (errno.getD 0 = 0 → st = 255 ∧ said = []) ∧
      (errno.getD 0 ≠ 0 → st = (errno.getD 0).natAbs ∧ said.filter (· ≠ 0#8) = errnoLine (errno.getD 0).natAbs) := by
  have hg : die_ K m w e false errno = if errno.getD 0 ≠ 0 then exit_errno K m w e false (errno.getD 0) else pure (.exited m w 255) := by
    cases errno <;> rfl
  rw [hg]
  by_cases hz : errno.getD 0 = 0
  · refine ⟨m, w, 255, [], by rw [if_neg (by simpa using hz)]; rfl, by decide, (List.append_nil _).symm, fun _ => ⟨rfl, rfl⟩, fun h => absurd hz h⟩
  · obtain ⟨m', w', said, h, hd, hf, -, -⟩ := C82_exit_errno_partial K m w e (errno.getD 0) hK h1 h2 hm
    exact ⟨m', w', _, said, by rw [if_pos hz, h], by omega, hd, fun h => absurd h hz, fun _ => ⟨rfl, hf⟩⟩

/-- C95: the conditional forms do what the others do when the condition holds, and nothing when it does not. -/
theorem C95_if (K : WKernel) (junk : Nat → Byte) (handled : Bool) (A : Arena) (h : Heap) (w : Writes) (e : Nat) (b : Bool) (errnum : Int) (p n : Nat)
    (ps : List Nat) (args : List PfArg) :
    (∀ x, die K h.mem w e b errnum p n = .ok x → die_if K h.mem w e b true errnum p n = .ok (some x)) ∧
    (∀ x, dies K h.mem w e b errnum p ps = .ok x → dies_if K h.mem w e b true errnum p ps = .ok (some x)) ∧
    (∀ x, dief K junk handled A h w e b errnum p args = .ok x → dief_if K junk handled A h w e b true errnum p args = .ok x) ∧
    die_if K h.mem w e b false errnum p n = .ok none ∧ dies_if K h.mem w e b false errnum p ps = .ok none ∧
    dief_if K junk handled A h w e b false errnum p args = .ok (.on h w) := by
  refine ⟨fun x hx => ?_, fun x hx => ?_, fun x hx => hx, rfl, rfl, rfl⟩
  · unfold die_if; rw [if_pos rfl, hx]; rfl
  · unfold dies_if; rw [if_pos rfl, hx]; rfl

/-! ### dief, error, err, errx, warn -/

/-- A message with a format: the arena after any history, a format and good arguments, and room for the text. -/
structure _root_.Spec.Message (A : Arena) (m₀ : Mem) (c : Client) (fmt : Nat) (its : List Item) : Prop where
  arena : A.Ok m₀
  reach : Reach A m₀ c
  call : PfCall c.heap.mem A.base c.heap.mbufsize.toNat fmt its
  good : ∀ it ∈ its, it.Good
  room : (render its).length + spare its < c.heap.mbufsize.toNat

theorem _root_.Spec.Message.said {K : WKernel} {junk : Nat → Byte} {handled : Bool} {A : Arena} {m₀ : Mem} {c : Client} {fmt : Nat} {its : List Item}
    (M : Message A m₀ c fmt its) (hK : Accepting K) (w : Writes) :
    ∃ h, Undisturbed A m₀ c h ∧ h.mbufsize = c.heap.mbufsize ∧
      fprintf K junk handled A c.heap w 2 fmt (fmtArgs its) = .ok (h, w ++ [(2, render its)], .ret (render its).length) := by
  have hh := (holds_append.1 (write_holds c.heap.mem A.base (render its ++ [0#8]))).1
  have hr := M.room
  unfold fprintf
  rw [C38_vsnprintf_partial M.call M.good M.room]
  simp only [Res.ok_bind]
  rw [if_neg (by simp), if_neg (by omega)]
  rw [show (((render its).length : Int)).toNat = (render its).length by omega, kwrite_eq hh, sysWrite_accepting hK]
  exact ⟨_, undisturbed_write M.arena M.reach (l := render its ++ [0#8]) (by simp; omega) M.call.size_pos, rfl, rfl⟩

/-- Static memory of `n` bytes at `p`: mapped, and outside of the arena. -/
def _root_.Spec.Static (A : Arena) (m : Mem) (p n : Nat) : Prop := m.Mapped p n ∧ (p + n ≤ A.base ∨ A.base + A.size ≤ p)

theorem reach_mb {A : Arena} {m₀ : Mem} (hA : A.Ok m₀) {c : Client} (r : Reach A m₀ c) : c.heap.mbufsize ≤ A.size := by
  obtain ⟨bs, L⟩ := reach_linked hA r
  have htot := chain_total L.heap.chain
  have hmb := L.heap.mb0
  omega

theorem reach_static {A : Arena} {m₀ : Mem} (l : List Byte) : ∀ {c : Client} {p : Nat}, Reach A m₀ c → (p + l.length ≤ A.base ∨ A.base + A.size ≤ p) →
    Reach A m₀ ⟨⟨c.heap.mem.write p l, c.heap.mbufsize⟩, c.live, c.shadow⟩ := by
  induction l with
  | nil => intro c p h _; rw [write_nil]; exact h
  | cons b l ih =>
    intro c p h hl
    rw [write_cons]
    simp only [List.length_cons] at hl
    exact ih (c := ⟨⟨c.heap.mem.upd p b, c.heap.mbufsize⟩, c.live, c.shadow⟩) (p := p + 1) (h.outside p b (by omega)) (by omega)

theorem _root_.Spec.Undisturbed.static {A : Arena} {m₀ : Mem} (hA : A.Ok m₀) {c : Client} (r : Reach A m₀ c) {h : Heap} (u : Undisturbed A m₀ c h) {p n : Nat}
    (s : Static A c.heap.mem p n) : Static A h.mem p n := by
  have hb := reach_mb hA r
  refine ⟨fun i hi => ?_, s.2⟩
  obtain ⟨b, hx⟩ := s.1 i hi
  refine ⟨b, ?_⟩
  rw [u.frame _ ?_, hx]
  rcases s.2 with h1 | h1
  · omega
  · right
    omega

theorem _root_.Spec.Undisturbed.literal {A : Arena} {m₀ : Mem} (hA : A.Ok m₀) {c : Client} (r : Reach A m₀ c) {h : Heap} (u : Undisturbed A m₀ c h)
    {p : Nat} (s : Static A c.heap.mem p 2) (hc : c.heap.mem.IsStr p [58#8]) : h.mem.IsStr p [58#8] := by
  have hb := reach_mb hA r
  have e0 : ∀ x, p ≤ x → x < p + 2 → h.mem x = c.heap.mem x := by
    intro x hx1 hx2
    refine u.frame x ?_
    rcases s.2 with h3 | h3
    · omega
    · right; omega
  refine ⟨holds_cons.2 ⟨?_, holds_nil _ _⟩, ?_, hc.2.2⟩
  · rw [e0 _ (by omega) (by omega)]; exact (holds_cons.1 hc.1).1
  · have := hc.2.1
    simp only [List.length_singleton] at this ⊢
    rw [e0 _ (by omega) (by omega)]; exact this

/-- C95 (partial: up to NUL bytes behind the message): `dief(errnum, fmt, …)` writes the text of the format to standard error, then the line with the
number, nothing elsewhere, and the status is the number. -/
theorem C95_dief_partial {K : WKernel} {junk : Nat → Byte} {handled : Bool} {A : Arena} {m₀ : Mem} {c : Client} {fmt : Nat} {its : List Item}
    (M : Message A m₀ c fmt its) (hK : Accepting K) (w : Writes) {e : Nat} {errnum : Int} (h1 : -199 ≤ errnum) (h2 : errnum ≤ 199)
    (hm : Static A c.heap.mem e 5) :
    ∃ m' w' rest, dief K junk handled A c.heap w e false errnum fmt (fmtArgs its) = .ok (.gone (.exited m' w' errnum.natAbs)) ∧
      delivered 2 w' = delivered 2 w ++ (render its ++ rest) ∧ rest.filter (· ≠ 0#8) = errnoLine errnum.natAbs ∧
      ∀ fd, fd ≠ 2 → delivered fd w' = delivered fd w := by
  obtain ⟨h, u, -, hp⟩ := M.said (junk := junk) (handled := handled) hK w
  obtain ⟨m', w', said, hx, hd, hf, ho, -⟩ := C82_exit_errno_partial K h.mem (w ++ [(2, render its)]) e errnum hK h1 h2
    (u.static M.arena M.reach hm).1
  refine ⟨m', w', said, ?_, ?_, hf, fun fd hfd => ?_⟩
  · unfold dief; rw [hp, Res.ok_bind]; simp only [hx, Res.ok_bind]; rfl
  · rw [hd, delivered_one, if_pos rfl, List.append_assoc]
  · rw [ho fd hfd, delivered_one, if_neg hfd, List.append_nil]

/-- The text behind the message: a colon and the text of strerror. -/
def _root_.Spec.reason (n : Nat) : List Byte := textBytes ":Error, errno: " ++ threeDigits n

theorem threeDigits_ne (n : Nat) (hn : n < 1000) : ∀ b ∈ threeDigits n, b ≠ 0#8 := by
  intro b hb h0
  subst h0
  simp only [threeDigits, List.mem_cons, List.not_mem_nil, or_false] at hb
  rcases hb with h | h | h <;> (have := congrArg BitVec.toNat h; simp only [BitVec.toNat_ofNat] at this; omega)

theorem errReason_eq {K : WKernel} {m : Mem} {errstr colon : Nat} {n : Nat} (hK : Accepting K) (hn : n < 1000) (hm : m.Mapped errstr 18)
    (hz : errstr ≠ 0) (hc : m.IsStr colon [58#8]) (hcz : colon ≠ 0) (ha : colon + 2 ≤ errstr ∨ errstr + 18 ≤ colon) (w : Writes) :
    ∃ l w', l.length = 18 ∧ errReason K m w errstr colon n = .ok (m.write errstr l, w') ∧
      ∀ f, delivered f w' = delivered f w ++ if f = 2 then reason n else [] := by
  have hl14 : (textBytes "Error, errno: ").length = 14 := by decide +kernel
  have hl : (textBytes "Error, errno: " ++ threeDigits n ++ [0#8]).length = 18 := by
    simp only [List.length_append, List.length_singleton, threeDigits, List.length_cons, List.length_nil, hl14]
  have hh := write_holds m errstr (textBytes "Error, errno: " ++ threeDigits n ++ [0#8])
  obtain ⟨hh1, hh2⟩ := holds_append.1 hh
  have hs : (m.write errstr (textBytes "Error, errno: " ++ threeDigits n ++ [0#8])).IsStr errstr (textBytes "Error, errno: " ++ threeDigits n) := by
    refine ⟨hh1, (holds_cons.1 hh2).1, ?_⟩
    intro b hb
    rcases List.mem_append.1 hb with hb | hb
    · have : ∀ b ∈ textBytes "Error, errno: ", b ≠ 0#8 := by decide +kernel
      exact this b hb
    · exact threeDigits_ne n hn b hb
  have hc' : (m.write errstr (textBytes "Error, errno: " ++ threeDigits n ++ [0#8])).IsStr colon [58#8] := by
    refine ⟨?_, ?_, hc.2.2⟩
    · refine holds_cons.2 ⟨?_, holds_nil _ _⟩
      rw [write_outside _ _ _ _ (by rw [hl]; omega)]
      exact (holds_cons.1 hc.1).1
    · have := hc.2.1
      simp only [List.length_singleton] at this ⊢
      rw [write_outside _ _ _ _ (by rw [hl]; omega)]
      exact this
  obtain ⟨w', hp, hd⟩ := C88_prints (K := K) (fd := 2) (ps := [colon, errstr]) (ss := [[58#8], textBytes "Error, errno: " ++ threeDigits n]) hK
    (by simp) ⟨hc', hs, trivial⟩ (by simp [hz, hcz]) (by simp) (by
      simp only [List.flatten_cons, List.flatten_nil, List.append_nil, List.length_append, List.length_cons, List.length_nil, hl14, threeDigits]
      omega) w
  refine ⟨_, w', hl, ?_, fun f => ?_⟩
  · unfold errReason
    rw [C59_strerror m errstr n hn hm, Res.ok_bind]
    simp only [hp, Res.ok_bind]
    rfl
  · rw [hd f]
    have : textBytes ":Error, errno: " = 58#8 :: textBytes "Error, errno: " := by decide +kernel
    simp only [reason, this, List.flatten_cons, List.flatten_nil, List.append_nil, List.cons_append, List.nil_append]

/-- C95: `error(status, errnum, fmt, …)` writes the text of the format to standard error, behind it a colon and the text of strerror if `errnum` is not 0,
and nothing elsewhere.  With a status other than 0 the process ends with its lower eight bits; with status 0 it goes on, with its blocks as they were. -/
theorem C95_error_partial {K : WKernel} {junk : Nat → Byte} {handled : Bool} {A : Arena} {m₀ : Mem} {c : Client} {fmt : Nat} {its : List Item}
    (M : Message A m₀ c fmt its) (hK : Accepting K) (w : Writes) {errstr colon : Nat} {status : Int} {errnum : Nat} (h1 : errnum < 1000)
    (hm : Static A c.heap.mem errstr 18) (hz : errstr ≠ 0) (hc : c.heap.mem.IsStr colon [58#8]) (hcs : Static A c.heap.mem colon 2) (hcz : colon ≠ 0)
    (ha : colon + 2 ≤ errstr ∨ errstr + 18 ≤ colon) :
    ∃ h w', (∀ f, delivered f w' = delivered f w ++ if f = 2 then render its ++ (if errnum = 0 then [] else reason errnum) else []) ∧
      Reach A m₀ ⟨h, c.live, c.shadow⟩ ∧
      (∀ p n, (p, n) ∈ c.live → ∀ x, p ≤ x → x < p + n → h.mem x = c.heap.mem x) ∧
      errorMsg K junk handled A c.heap w errstr colon status errnum fmt (fmtArgs its)
        = .ok (if status = 0 then .on h w' else .gone (.exited h.mem w' (status % 256).toNat)) := by
  obtain ⟨h, u, hb, hp⟩ := M.said (junk := junk) (handled := handled) hK w
  have hs1 := u.static M.arena M.reach hm
  have hc1 := u.static M.arena M.reach hcs
  have key : ∃ m' w', (if (errnum : Int) ≠ 0 then errReason K h.mem (w ++ [(2, render its)]) errstr colon errnum
        else pure (h.mem, w ++ [(2, render its)])) = .ok (m', w') ∧
      (∀ f, delivered f w' = delivered f w ++ if f = 2 then render its ++ (if errnum = 0 then [] else reason errnum) else []) ∧
      Reach A m₀ ⟨⟨m', h.mbufsize⟩, c.live, c.shadow⟩ ∧ ∀ x, x < errstr ∨ errstr + 18 ≤ x → m' x = h.mem x := by
    by_cases he : errnum = 0
    · subst he
      refine ⟨_, _, rfl, fun f => ?_, u.reach, fun _ _ => rfl⟩
      rw [delivered_one]; simp
    · have hst := u.literal M.arena M.reach hcs hc
      obtain ⟨l, w', hl, h5, h6⟩ := errReason_eq (K := K) hK h1 hs1.1 hz hst hcz ha (w ++ [(2, render its)])
      refine ⟨_, w', by rw [if_pos (by omega), h5], fun f => ?_, ?_, fun x hx => write_outside _ _ _ _ (by rw [hl]; omega)⟩
      · rw [h6 f, delivered_one, List.append_assoc]
        by_cases hf : f = 2 <;> simp [hf, he]
      · exact reach_static l (c := ⟨h, c.live, c.shadow⟩) u.reach (by rw [hl]; exact hs1.2)
  obtain ⟨m', w', hk, hd, hr, hx⟩ := key
  refine ⟨⟨m', h.mbufsize⟩, w', hd, hr, ?_, ?_⟩
  · intro p n hpn x hx1 hx2
    have hin := (C17_history M.arena M.reach).2.2.1 p n hpn
    show m' x = _
    rw [hx x ?_, u.blocks p n hpn x (by omega) hx2]
    rcases hm.2 with h3 | h3 <;> omega
  · unfold errorMsg
    rw [hp, Res.ok_bind]
    simp only [hk, Res.ok_bind]
    by_cases hz0 : status = 0
    · subst hz0; rfl
    · rw [if_pos hz0, if_neg hz0]; rfl

/-- C95: `err(status, fmt, …)` writes the text, a colon and the text of errno, and ends with the status (0 too); `errx` does the same without errno;
`warn` only writes. -/
theorem C95_err_partial {K : WKernel} {junk : Nat → Byte} {handled : Bool} {A : Arena} {m₀ : Mem} {c : Client} {fmt : Nat} {its : List Item}
    (M : Message A m₀ c fmt its) (hK : Accepting K) (w : Writes) {errstr colon : Nat} {status errno : Nat} (h1 : errno < 1000) (h2 : status < 256)
    (hm : Static A c.heap.mem errstr 18) (hz : errstr ≠ 0) (hc : c.heap.mem.IsStr colon [58#8]) (hcs : Static A c.heap.mem colon 2) (hcz : colon ≠ 0)
    (ha : colon + 2 ≤ errstr ∨ errstr + 18 ≤ colon) :
    (∃ m' w', errMsg K junk handled A c.heap w errstr colon status errno fmt (fmtArgs its) = .ok (.gone (.exited m' w' status)) ∧
      ∀ f, delivered f w' = delivered f w ++ if f = 2 then render its ++ reason errno else []) ∧
    (∃ m' w', errxMsg K junk handled A c.heap w status fmt (fmtArgs its) = .ok (.gone (.exited m' w' status)) ∧
      ∀ f, delivered f w' = delivered f w ++ if f = 2 then render its else []) ∧
    (∃ h w', warnMsg K junk handled A c.heap w fmt (fmtArgs its) = .ok (.on h w') ∧ Undisturbed A m₀ c h ∧
      ∀ f, delivered f w' = delivered f w ++ if f = 2 then render its else []) := by
  obtain ⟨h, u, hb, hp⟩ := M.said (junk := junk) (handled := handled) hK w
  have hst : ((status : Int) % 256).toNat = status := by omega
  refine ⟨?_, ⟨h.mem, _, ?_, fun f => delivered_one _ _ _ _⟩, ⟨h, _, ?_, u, fun f => delivered_one _ _ _ _⟩⟩
  · have hs1 := u.static M.arena M.reach hm
    have hst2 := u.literal M.arena M.reach hcs hc
    obtain ⟨l, w', hl, h5, h6⟩ := errReason_eq (K := K) hK h1 hs1.1 hz hst2 hcz ha (w ++ [(2, render its)])
    refine ⟨h.mem.write errstr l, w', ?_, fun f => ?_⟩
    · unfold errMsg
      rw [hp, Res.ok_bind]
      simp only [h5, Res.ok_bind, hst]
      rfl
    · rw [h6 f, delivered_one, List.append_assoc]
      by_cases hf : f = 2 <;> simp [hf]
  · unfold errxMsg
    rw [hp, Res.ok_bind]
    simp only [hst]
    rfl
  · unfold warnMsg
    rw [hp, Res.ok_bind]
    rfl

/-- The format "%x", the buffer of strerror, the literal ":", and an arena of 256 bytes. -/
def errmsgMem : Mem := objects [(8, [37#8, 120#8, 0#8]), (20, List.replicate 18 0#8), (40, [58#8, 0#8]), (60, List.replicate 5 0#8), (100, List.replicate 256 0#8)]

theorem errMessage : Message ⟨100, 256⟩ errmsgMem ⟨Heap.init ⟨100, 256⟩ errmsgMem, [], fun _ => none⟩ 8 [.conv [] false [] (.hex 10#32)] where
  arena := ⟨by decide, by decide, by decide, by decide, by decide, by decide +kernel⟩
  reach := .init
  call := .of_check (by decide) (by decide +kernel) (by decide +kernel) (by decide +kernel) (by decide +kernel)
  good := by decide +kernel
  room := by decide +kernel

/-- `error(3, 42, "%x", 10)`: "a:Error, errno: 042", and the status 3. -/
example : ∃ m' w', errorMsg (fun _ _ l => l.length) (fun _ => 0#8) false ⟨100, 256⟩ (Heap.init ⟨100, 256⟩ errmsgMem) [] 20 40 3 42 8 [.int 10#32]
      = .ok (.gone (.exited m' w' 3)) ∧ delivered 2 w' = textBytes "a:Error, errno: 042" := by
  obtain ⟨h, w', hd, -, -, he⟩ := C95_error_partial (K := fun _ _ l => l.length) (junk := fun _ => 0#8) (handled := false) errMessage (fun _ _ _ => rfl) []
    (errstr := 20) (colon := 40) (status := 3) (errnum := 42) (by decide) ⟨by decide +kernel, by decide⟩ (by decide)
    (by unfold Mem.IsStr Mem.Holds; decide +kernel) ⟨by decide +kernel, by decide⟩ (by decide) (by decide)
  exact ⟨h.mem, w', he, by rw [hd 2]; decide +kernel⟩

/-- `dief(5, "%x", 10)`: "a", then the line with the number, and the status 5. -/
example : ∃ m' w', dief (fun _ _ l => l.length) (fun _ => 0#8) false ⟨100, 256⟩ (Heap.init ⟨100, 256⟩ errmsgMem) [] 60 false 5 8 [.int 10#32]
      = .ok (.gone (.exited m' w' 5)) ∧ (delivered 2 w').filter (· ≠ 0#8) = textBytes "aError, errno: 05\n" := by
  obtain ⟨m', w', rest, he, hd, hf, -⟩ := C95_dief_partial (K := fun _ _ l => l.length) (junk := fun _ => 0#8) (handled := false) errMessage (fun _ _ _ => rfl) []
    (e := 60) (errnum := 5) (by decide) (by decide) ⟨by decide +kernel, by decide⟩
  exact ⟨m', w', he, by rw [hd, show delivered 2 [] = [] from rfl, List.nil_append, List.filter_append, hf]; decide +kernel⟩

/-- C95: a status of 256 is reported as success, by `error`, `err` and `errx` alike: here by `errx`. -/
theorem C95_status_refuted {K : WKernel} {junk : Nat → Byte} {handled : Bool} {A : Arena} {m₀ : Mem} {c : Client} {fmt : Nat} {its : List Item}
    (M : Message A m₀ c fmt its) (hK : Accepting K) (w : Writes) (k : Nat) :
    ∃ m' w', errxMsg K junk handled A c.heap w (256 * k : Nat) fmt (fmtArgs its) = .ok (.gone (.exited m' w' 0)) := by
  obtain ⟨h, u, hb, hp⟩ := M.said (junk := junk) (handled := handled) hK w
  refine ⟨h.mem, w ++ [(2, render its)], ?_⟩
  unfold errxMsg
  rw [hp, Res.ok_bind]
  simp only [show (((256 * k : Nat) : Int) % 256).toNat = 0 by omega]
  rfl

/-- `die(2, "ab")` where errno is installed: it gets the number as its argument. -/
example : ∃ m' w' p, die (fun _ _ l => l.length) dieMem [] 100 true 2 16 2 = .ok (.exec m' w' (textBytes "/bin/errno") p) ∧
    m'.IsStr p (errnoDigits 2) := by
  obtain ⟨m', w', p, h, -, h2⟩ := C95_die_exec (K := fun _ _ l => l.length) (m := dieMem) [] (e := 100) (errnum := 2) (msg := 16)
    (text := [97#8, 98#8]) (fun _ _ _ => rfl) (by decide) (by decide) (by decide +kernel) dieMem_str
  exact ⟨m', w', p, h, h2⟩

/-- `dies(2, "ab\n", "ab\n")`, and `die_()` with errno 2. -/
example : (∃ m' w', dies (fun _ _ l => l.length) dieMem [] 100 false 2 18 [16, 16] = .ok (.exited m' w' 2)) ∧
    ∃ m' w' st, die_ (fun _ _ l => l.length) dieMem [] 100 false (some 2) = .ok (.exited m' w' st) ∧ st = 2 := by
  refine ⟨?_, ?_⟩
  · obtain ⟨m', w', rest, h, -⟩ := C95_dies_partial (K := fun _ _ l => l.length) (m := dieMem) [] (e := 100) (errnum := 2) (nl := 18)
      (ps := [16, 16]) (ss := [[97#8, 98#8, 10#8], [97#8, 98#8, 10#8]]) (fun _ _ _ => rfl) (by decide) (by decide) (by decide +kernel)
      ⟨dieMem_str, dieMem_str, trivial⟩ (by unfold Mem.IsStr Mem.Holds; decide +kernel) (by decide) (by decide) (by decide) (by decide)
    exact ⟨m', w', h⟩
  · obtain ⟨m', w', st, said, h, -, -, -, h2⟩ := C95_die_errno_partial (fun _ _ l => l.length) dieMem [] 100 (some 2) (fun _ _ _ => rfl)
      (by decide) (by decide) (by decide +kernel)
    exact ⟨m', w', st, h, (h2 (by decide)).1⟩

end Minilib

import Verif.Model.Process
import Verif.Props.Bits
import Verif.Props.Syscall
import Verif.Props.Prints
/-
C82: signal actions, abort, exit_errno, perror, the answer of open.
-/

set_option autoImplicit false

namespace Spec

/-- Signals whose action can be set. -/
def settable (sig : Int) : Prop := 1 ≤ sig ∧ sig ≤ 64 ∧ sig ≠ 9 ∧ sig ≠ 19

/-- The handler in force after some calls of signal, the last one first. -/
def handlerAfter (start : Int) (sig : Int) : List (Int × Int) → Int
  | [] => start
  | (s, f) :: l => if s = sig then f else handlerAfter start sig l

end Spec

namespace Minilib
open Mem

theorem rt_ok {t : SigTable} {sig : Int} {a : SigAct} (h : Spec.settable sig) : rtSigaction t sig a = (fun s => if s = sig then a else t s, 0) := by
  unfold Spec.settable at h
  exact if_neg (by omega)

theorem rt_no {t : SigTable} {sig : Int} {a : SigAct} (h : ¬ Spec.settable sig) : rtSigaction t sig a = (t, -22) := by
  unfold Spec.settable at h
  exact if_pos (by omega)

/-- C82 (partial: a new action is given): sigaction sets handler, mask and flags of the one signal, answers 0 and stores the old action; for a
number whose action cannot be set it answers an error and changes nothing. -/
theorem C82_sigaction_partial (u : Bool) (rst : Nat) (t : SigTable) (sig : Int) (a : SigAct) :
    (Spec.settable sig → ∃ t', sigaction u rst t sig (some a) = .ok (t', 0, some (t sig)) ∧ (t' sig).handler = a.handler ∧ (t' sig).mask = a.mask ∧
      (t' sig).flags = a.flags ||| 0x04000000 ∧ (t' sig).restorer = rst ∧ ∀ s, s ≠ sig → t' s = t s) ∧
    (¬ Spec.settable sig → ∃ r, sigaction u rst t sig (some a) = .ok (t, r, none) ∧ r < 0) := by
  refine ⟨fun h => ⟨_, by unfold sigaction; simp only [rt_ok h]; cases u <;> rfl, by simp, by simp, by simp, by simp, fun s hs => by simp [hs]⟩, fun h => ?_⟩
  cases u
  · exact ⟨-22, by unfold sigaction; simp only [rt_no h]; rfl, by decide⟩
  · exact ⟨-1, by unfold sigaction; simp only [rt_no h]; rfl, by decide⟩

/-- C82: asking for the action with a NULL for the new one (the way the interface provides) reads through NULL. -/
theorem C82_sigaction_null_refuted (u : Bool) (rst : Nat) (t : SigTable) (sig : Int) : sigaction u rst t sig none = .ub := rfl

/-- C82: signal sets the handler of the one signal and answers the old handler, silently; for a number whose handler cannot be set it answers
SIG_ERR with a message and changes nothing. -/
theorem C82_signal (u : Bool) (rst : Nat) (t : SigTable) (sig f : Int) :
    (Spec.settable sig → ∃ t', signal u rst t sig f = .ok (t', (t sig).handler, []) ∧ (t' sig).handler = f ∧ ∀ s, s ≠ sig → t' s = t s) ∧
    (¬ Spec.settable sig → ∃ said, signal u rst t sig f = .ok (t, -1, said) ∧ said ≠ []) := by
  constructor
  · intro h
    obtain ⟨t', h1, h2, -, -, -, h3⟩ := (C82_sigaction_partial u rst t sig ⟨f, 0x10000000, 0, 0⟩).1 h
    refine ⟨t', ?_, h2, h3⟩
    unfold signal
    rw [h1]
    rfl
  · intro h
    obtain ⟨r, h1, h2⟩ := (C82_sigaction_partial u rst t sig ⟨f, 0x10000000, 0, 0⟩).2 h
    refine ⟨_, ?_, show ewritesText "SIGNAL - ERR\n" ≠ [] by decide⟩
    unfold signal
    rw [h1, Res.ok_bind, if_pos h2]
    rfl

/-- Calls of signal, the last one first: the actions afterwards. -/
def signalRun (u : Bool) (rst : Nat) (t : SigTable) : List (Int × Int) → Res SigTable
  | [] => .ok t
  | c :: l => do
    let t ← signalRun u rst t l
    let r ← signal u rst t c.1 c.2
    pure r.1

/-- C82: after any calls of signal the handler of each signal is the one given last, and the next call answers it. -/
theorem C82_signal_history (u : Bool) (rst : Nat) (t : SigTable) (cs : List (Int × Int)) (hc : ∀ c ∈ cs, Spec.settable c.1) :
    ∃ t', signalRun u rst t cs = .ok t' ∧ (∀ sig, (t' sig).handler = Spec.handlerAfter (t sig).handler sig cs) ∧
      ∀ sig f, Spec.settable sig → ∃ t'', signal u rst t' sig f = .ok (t'', Spec.handlerAfter (t sig).handler sig cs, []) := by
  have key : ∃ t', signalRun u rst t cs = .ok t' ∧ ∀ sig, (t' sig).handler = Spec.handlerAfter (t sig).handler sig cs := by
    induction cs with
    | nil => exact ⟨t, rfl, fun _ => rfl⟩
    | cons c l ih =>
      obtain ⟨t1, h1, h2⟩ := ih (fun x hx => hc x (List.mem_cons_of_mem _ hx))
      obtain ⟨t2, h3, h4, h5⟩ := (C82_signal u rst t1 c.1 c.2).1 (hc c (List.mem_cons_self ..))
      refine ⟨t2, by rw [signalRun, h1, Res.ok_bind, h3]; rfl, fun sig => ?_⟩
      by_cases hs : c.1 = sig
      · subst hs; rw [h4]; simp [Spec.handlerAfter]
      · rw [h5 sig (Ne.symm hs), h2 sig]; simp [Spec.handlerAfter, hs]
  obtain ⟨t', h1, h2⟩ := key
  refine ⟨t', h1, h2, fun sig f hs => ?_⟩
  obtain ⟨t'', h3, -⟩ := (C82_signal u rst t' sig f).1 hs
  exact ⟨t'', by rw [h3, h2 sig]⟩

/-- C82 (partial: SIGABRT is not blocked, and not by its handler either): abort ends the process by SIGABRT, whatever the action is, unless the
handler ends it. -/
theorem C82_abort_partial (u : Bool) (rst : Nat) (run : Int → SigState → Option SigState) (s : SigState) (hb : s.blocked 6 = false)
    (hr : ∀ s', run (s.table 6).handler s = some s' → s'.blocked 6 = false) :
    abort u rst run s = .ok (.killed 6) ∨ (abort u rst run s = .ok .inHandler ∧ run (s.table 6).handler s = none) := by
  have second : ∀ s' : SigState, s'.blocked 6 = false → (do
      let r ← signal u rst s'.table 6 0
      match raise run { s' with table := r.1 } 6 with
      | .inl e => Res.ok e
      | .inr _ => .ok (.exited 125)) = .ok (.killed 6) := by
    intro s' h'
    obtain ⟨t', h1, h2, -⟩ := (C82_signal u rst s'.table 6 0).1 (by unfold Spec.settable; omega)
    rw [h1, Res.ok_bind]
    simp [raise, h', h2]
  unfold abort
  by_cases h0 : (s.table 6).handler = 0
  · left; simp [raise, hb, h0]
  · by_cases h1 : (s.table 6).handler = 1
    · left
      have : raise run s 6 = .inr s := by simp [raise, hb, h1]
      rw [this]
      exact second s hb
    · cases hrun : run (s.table 6).handler s with
      | none =>
        right
        have : raise run s 6 = .inl .inHandler := by simp [raise, hb, h0, h1, hrun]
        rw [this]
        exact ⟨rfl, rfl⟩
      | some s' =>
        left
        have : raise run s 6 = .inr s' := by simp [raise, hb, h0, h1, hrun]
        rw [this]
        exact second s' (hr s' hrun)

/-- C82: with SIGABRT blocked, abort is a normal exit with code 125. -/
theorem C82_abort_refuted (u : Bool) (rst : Nat) (run : Int → SigState → Option SigState) (s : SigState) (hb : s.blocked 6 = true) :
    abort u rst run s = .ok (.exited 125) := by
  unfold abort
  have : raise run s 6 = .inr s := by simp [raise, hb]
  rw [this]
  obtain ⟨t', h1, h2, -⟩ := (C82_signal u rst s.table 6 0).1 (by unfold Spec.settable; omega)
  simp only [h1, Res.ok_bind]
  simp [raise, hb]

/-- The digits of the number exit_errno shows. -/
def errnoDigits (n : Nat) : List Byte := if n < 100 then (Spec.threeDigits n).tail else Spec.threeDigits n

/-- The line exit_errno is meant to write. -/
def errnoLine (n : Nat) : List Byte := textBytes "Error, errno: " ++ errnoDigits n ++ textBytes "\n"

/-- The bytes it writes: a NUL behind the text, behind a number of two digits, and behind the newline. -/
def errnoBytes (n : Nat) : List Byte :=
  textBytes "Error, errno: " ++ [0#8] ++ errnoDigits n ++ (if n < 100 then [0#8] else []) ++ textBytes "\n" ++ [0#8]

/-- C82, full statement: without /bin/errno, exit_errno writes the number on a line, and the process ends with that status. -/
def C82_exit_errno_full : Prop :=
  ∀ (K : WKernel) (m : Mem) (w : Writes) (e : Nat) (errnum : Int), Spec.Accepting K → errnum ≠ 0 → -199 ≤ errnum → errnum ≤ 199 → m.Mapped e 5 →
    ∃ m' w', exit_errno K m w e false errnum = .ok (.exited m' w' errnum.natAbs) ∧
      Spec.delivered 2 w' = Spec.delivered 2 w ++ errnoLine errnum.natAbs

theorem exit_errno_eq (K : WKernel) (m : Mem) (w : Writes) (e : Nat) (errnum : Int) (hK : Spec.Accepting K) (h1 : -199 ≤ errnum) (h2 : errnum ≤ 199)
    (hm : m.Mapped e 5) : ∃ m' w', exit_errno K m w e false errnum = .ok (.exited m' w' errnum.natAbs) ∧
      (∀ fd, Spec.delivered fd w' = Spec.delivered fd w ++ if fd = 2 then errnoBytes errnum.natAbs else []) ∧
      ∀ x, x < e ∨ e + 5 ≤ x → m' x = m x := by
  have e1 : (if errnum < 0 then ckInt (-errnum) else pure errnum) = Res.ok (errnum.natAbs : Int) := by
    split
    · rw [ckInt_ok (by omega) (by omega)]; congr 1; omega
    · show Res.ok errnum = _; congr 1; omega
  obtain ⟨m', p, h3, hw, h4⟩ := C64_errno_str m e (errnum.natAbs : Int) (by omega) (by omega) hm
  rw [Int.natAbs_natCast] at h4
  have h5 : ∃ l : List Byte, l.length = 3 ∧ l = errnoDigits errnum.natAbs ++ (if errnum.natAbs < 100 then [0#8] else []) ∧ m'.Holds p l := by
    refine ⟨_, ?_, rfl, ?_⟩
    · unfold errnoDigits; split <;> rfl
    · unfold errnoDigits
      by_cases hc : errnum.natAbs < 100
      · rw [if_pos hc] at h4
        rw [if_pos hc, if_pos hc]
        exact holds_append.2 ⟨h4.1, holds_cons.2 ⟨h4.2.1, holds_nil _ _⟩⟩
      · rw [if_neg hc] at h4
        rw [if_neg hc, if_neg hc, List.append_nil]
        exact h4.1
  obtain ⟨l, hl, hle, hh⟩ := h5
  have h6 := kwrite_eq (K := K) (w := (sysWrite K w 2 (ewritesText "Error, errno: ")).1) (fd := 2) hh
  rw [hl] at h6
  refine ⟨m', (sysWrite K (sysWrite K (sysWrite K w 2 (ewritesText "Error, errno: ")).1 2 l).1 2 (ewritesText "\n")).1, ?_, ?_, ?_⟩
  · unfold exit_errno
    rw [e1, Res.ok_bind, h3, Res.ok_bind, if_neg (by decide)]
    simp only [h6, Res.ok_bind, Res.pure_eq]
    congr 2
    omega
  · intro fd
    rw [sysWrite_accepting hK, sysWrite_accepting hK, sysWrite_accepting hK]
    simp only [delivered_one, Bool.decide_eq_true]
    by_cases hf : fd = 2
    · subst hf
      simp only [if_true, errnoBytes, ewritesText, hle, List.append_assoc]
    · have hf' : ¬ (2 : Int) = fd := fun h => hf h.symm
      simp [hf, hf']
  · intro x hx
    rw [hw]
    exact write_outside _ _ _ _ (by simp only [List.length_cons, List.length_nil]; omega)

theorem errnoBytes_line (n : Nat) (h : n ≤ 199) : (errnoBytes n).filter (· ≠ 0#8) = errnoLine n := by
  have : ∀ k : Fin 200, (errnoBytes k.val).filter (· ≠ 0#8) = errnoLine k.val := by decide +kernel
  exact this ⟨n, by omega⟩

/-- C82 (partial: up to NUL bytes): without /bin/errno the line with the number goes to standard error and nothing to another descriptor, the status
is the number, and nothing but the buffer of errno_str is changed. -/
theorem C82_exit_errno_partial (K : WKernel) (m : Mem) (w : Writes) (e : Nat) (errnum : Int) (hK : Spec.Accepting K) (h1 : -199 ≤ errnum)
    (h2 : errnum ≤ 199) (hm : m.Mapped e 5) :
    ∃ m' w' said, exit_errno K m w e false errnum = .ok (.exited m' w' errnum.natAbs) ∧
      Spec.delivered 2 w' = Spec.delivered 2 w ++ said ∧ said.filter (· ≠ 0#8) = errnoLine errnum.natAbs ∧
      (∀ fd, fd ≠ 2 → Spec.delivered fd w' = Spec.delivered fd w) ∧ ∀ x, x < e ∨ e + 5 ≤ x → m' x = m x := by
  obtain ⟨m', w', h, hd, hx⟩ := exit_errno_eq K m w e errnum hK h1 h2 hm
  refine ⟨m', w', errnoBytes errnum.natAbs, h, by rw [hd 2, if_pos rfl], errnoBytes_line _ (by omega), fun fd hf => ?_, hx⟩
  rw [hd fd, if_neg hf, List.append_nil]

/-- C82: with /bin/errno the process becomes that program with the digits of the number as its argument, and nothing is written. -/
theorem C82_exit_errno_exec (K : WKernel) (m : Mem) (w : Writes) (e : Nat) (errnum : Int) (h1 : -199 ≤ errnum) (h2 : errnum ≤ 199) (hm : m.Mapped e 5) :
    ∃ m' p, exit_errno K m w e true errnum = .ok (.exec m' w (textBytes "/bin/errno") p) ∧ m'.IsStr p (errnoDigits errnum.natAbs) := by
  have e1 : (if errnum < 0 then ckInt (-errnum) else pure errnum) = Res.ok (errnum.natAbs : Int) := by
    split
    · rw [ckInt_ok (by omega) (by omega)]; congr 1; omega
    · show Res.ok errnum = _; congr 1; omega
  obtain ⟨m', p, h3, -, h4⟩ := C64_errno_str m e (errnum.natAbs : Int) (by omega) (by omega) hm
  rw [Int.natAbs_natCast] at h4
  refine ⟨m', p, ?_, h4⟩
  unfold exit_errno
  rw [e1, Res.ok_bind, h3, Res.ok_bind, if_pos rfl]
  rfl

/-- C82: the bytes are never just the line: there is a NUL behind the text, and behind the newline. -/
theorem C82_exit_nul_refuted (K : WKernel) (m : Mem) (w : Writes) (e : Nat) (errnum : Int) (hK : Spec.Accepting K) (h1 : -199 ≤ errnum)
    (h2 : errnum ≤ 199) (hm : m.Mapped e 5) :
    ∃ m' w', exit_errno K m w e false errnum = .ok (.exited m' w' errnum.natAbs) ∧
      Spec.delivered 2 w' ≠ Spec.delivered 2 w ++ errnoLine errnum.natAbs := by
  obtain ⟨m', w', h, hd, -⟩ := exit_errno_eq K m w e errnum hK h1 h2 hm
  refine ⟨m', w', h, ?_⟩
  rw [hd 2, if_pos rfl]
  intro hq
  have := congrArg List.length (List.append_cancel_left hq)
  simp only [errnoBytes, errnoLine, List.length_append, List.length_singleton] at this
  omega

/-- C82 fails. -/
theorem C82_exit_errno_refuted : ¬ C82_exit_errno_full := by
  intro h
  obtain ⟨m1, w1, h1, h3⟩ := h (fun _ _ l => l.length) (object 100 (List.replicate 5 1#8)) [] 100 2 (fun _ _ _ => rfl) (by decide) (by decide) (by decide) (by decide)
  obtain ⟨m2, w2, h2, h4⟩ := C82_exit_nul_refuted (fun _ _ l => l.length) (object 100 (List.replicate 5 1#8)) [] 100 2 (fun _ _ _ => rfl) (by decide) (by decide) (by decide)
  rw [h1] at h2
  injection Res.ok.inj h2 with _ h5 _
  subst h5
  exact h4 h3

/-- C82: a status of 256 or a multiple of it is reported as success. -/
theorem C82_exit_status_refuted (K : WKernel) (m : Mem) (w : Writes) (e : Nat) (errnum : Int) (h : errnum % 256 = 0) {m' : Mem} {w' : Writes} {st : Nat}
    (hr : exit_errno K m w e false errnum = .ok (.exited m' w' st)) : st = 0 := by
  unfold exit_errno at hr
  have e1 : ∃ n : Int, n % 256 = 0 ∧ ((if errnum < 0 then ckInt (-errnum) else pure errnum) = Res.ok n ∨
      (if errnum < 0 then ckInt (-errnum) else pure errnum) = (Res.ub : Res Int)) := by
    split
    · refine ⟨-errnum, by omega, ?_⟩
      unfold ckInt; split
      · exact Or.inl rfl
      · exact Or.inr rfl
    · exact ⟨errnum, h, Or.inl rfl⟩
  obtain ⟨n, hn, e1 | e1⟩ := e1
  · rw [e1, Res.ok_bind] at hr
    obtain ⟨r, -, hr⟩ := Res.bind_eq_ok.mp hr
    rw [if_neg (by decide)] at hr
    obtain ⟨b, -, hr⟩ := Res.bind_eq_ok.mp hr
    have := Res.ok.inj hr
    injection this with _ _ h3
    rw [← h3]; omega
  · rw [e1] at hr; cases hr

/-- C82: the smallest int has no absolute value. -/
theorem C82_exit_min_refuted (K : WKernel) (m : Mem) (w : Writes) (e : Nat) (b : Bool) : exit_errno K m w e b (-2147483648) = .ub := rfl

/-- What perror is to write: the message, a colon and a blank (not for NULL or an empty message), the text, a newline. -/
def _root_.Spec.perrorLine (msg : Option (List Byte)) (text : List Byte) : List Byte :=
  (match msg with | none => [] | some [] => [] | some s => s ++ [58, 32]) ++ text ++ [10]

/-- C82: perror never writes what it is to write. -/
theorem C82_perror_refuted (msg : Option (List Byte)) (text : List Byte) : perror msg text ≠ Spec.perrorLine msg text := by
  intro h
  have := congrArg List.length h
  unfold perror Spec.perrorLine at this
  cases msg with
  | none => simp at this
  | some s => cases s <;> simp at this <;> omega

/-- C82 (partial: without the separators): the message, then the text. -/
theorem C82_perror_partial (msg : Option (List Byte)) (text : List Byte) : perror msg text = (msg.getD []) ++ text := by
  cases msg <;> rfl

/-- C82: open answers the negative number of the error, with errno as well, and sets errno. -/
theorem C82_open_partial (u : Bool) (r errno : Int) :
    (0 ≤ r → openAnswer u r errno = (r, errno)) ∧ (r < 0 → (openAnswer true r errno).2 = -r ∧ (openAnswer u r errno).1 < 0) := by
  refine ⟨fun h => ?_, fun h => ⟨by simp [openAnswer, h], h⟩⟩
  unfold openAnswer
  rw [if_neg (by omega)]

/-- C82, full statement for open: as any other system call, -1 for an error. -/
def C82_open_full : Prop := ∀ r errno : Int, -4095 ≤ r → openAnswer true r errno = Spec.answer r errno

/-- C82 fails: a missing file (ENOENT, 2) is answered by -2. -/
theorem C82_open_refuted : ¬ C82_open_full := fun h => absurd (h (-2) 0 (by decide)) (by decide)

example : signal true 7 (fun _ => ⟨0, 0, 0, 0⟩) 9 500 = .ok ((fun _ => ⟨0, 0, 0, 0⟩), -1, ewritesText "SIGNAL - ERR\n") := rfl

example : ∃ t', signalRun true 7 (fun _ => ⟨0, 0, 0, 0⟩) [(2, 600), (15, 1), (2, 500)] = .ok t' ∧ (t' 2).handler = 600 ∧ (t' 15).handler = 1 ∧ (t' 6).handler = 0 := by
  obtain ⟨t', h1, h2, -⟩ := C82_signal_history true 7 (fun _ => ⟨0, 0, 0, 0⟩) [(2, 600), (15, 1), (2, 500)] (by
    intro c hc; simp at hc; unfold Spec.settable; rcases hc with rfl | rfl | rfl <;> decide)
  exact ⟨t', h1, by rw [h2]; decide, by rw [h2]; decide, by rw [h2]; decide⟩

/-- A handler of SIGABRT that returns: the second signal ends the process. -/
example : abort true 7 (fun _ s => some s) ⟨fun _ => ⟨500, 0, 0, 0⟩, fun _ => false⟩ = .ok (.killed 6) := by
  rcases C82_abort_partial true 7 (fun _ s => some s) ⟨fun _ => ⟨500, 0, 0, 0⟩, fun _ => false⟩ rfl (by intro s' h; cases h; rfl) with h | h
  · exact h
  · cases h.2

/-- exit_errno(-111): "Error, errno: 111" on a line, with two NULs among it, and the status 111. -/
example : ∃ m' w', exit_errno (fun _ _ l => l.length) (object 100 (List.replicate 5 1#8)) [] 100 false (-111) = .ok (.exited m' w' 111) ∧
    (Spec.delivered 2 w').filter (· ≠ 0#8) = textBytes "Error, errno: 111\n" := by
  obtain ⟨m', w', said, h, h2, h3, -⟩ := C82_exit_errno_partial (fun _ _ l => l.length) (object 100 (List.replicate 5 1#8)) [] 100 (-111)
    (fun _ _ _ => rfl) (by decide) (by decide) (by decide)
  exact ⟨m', w', h, by rw [h2, show Spec.delivered 2 [] = [] from rfl, List.nil_append, h3]; decide +kernel⟩

/-- C82: a handler for signal 2; none for signal 9. -/
example : (∃ t', sigaction true 7 (fun _ => ⟨0, 0, 0, 0⟩) 2 (some ⟨500, 1, 0, 0⟩) = .ok (t', 0, some ⟨0, 0, 0, 0⟩) ∧ (t' 2).handler = 500) ∧
    ∃ r, sigaction true 7 (fun _ => ⟨0, 0, 0, 0⟩) 9 (some ⟨500, 1, 0, 0⟩) = .ok ((fun _ => ⟨0, 0, 0, 0⟩), r, none) ∧ r < 0 := by
  refine ⟨?_, (C82_sigaction_partial true 7 _ 9 _).2 (by unfold Spec.settable; decide)⟩
  obtain ⟨t', h1, h2, -⟩ := (C82_sigaction_partial true 7 (fun _ => ⟨0, 0, 0, 0⟩) 2 ⟨500, 1, 0, 0⟩).1 (by unfold Spec.settable; decide)
  exact ⟨t', h1, h2⟩

example : ∃ m' p, exit_errno (fun _ _ l => l.length) (object 100 (List.replicate 5 1#8)) [] 100 true (-111) = .ok (.exec m' [] (textBytes "/bin/errno") p) ∧
    m'.IsStr p (errnoDigits 111) :=
  C82_exit_errno_exec _ _ [] 100 (-111) (by decide) (by decide) (by decide)

end Minilib

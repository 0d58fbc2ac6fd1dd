import Verif.Model.Jmp
import Verif.Lemmas.Group
set_option autoImplicit false

/-- What a function finds again when a call returns (System V ABI for x86-64): where it goes on, its stack pointer
and the six registers a called function keeps. -/
structure Spec.Frame where
  pc : BitVec 64
  rsp : BitVec 64
  rbx : BitVec 64
  rbp : BitVec 64
  r12 : BitVec 64
  r13 : BitVec 64
  r14 : BitVec 64
  r15 : BitVec 64

namespace Minilib

/-- The registers are those of the frame. -/
def _root_.Spec.Frame.Is (f : Spec.Frame) (s : Cpu) : Prop :=
  s.reg .rsp = f.rsp ∧ s.reg .rbx = f.rbx ∧ s.reg .rbp = f.rbp ∧ s.reg .r12 = f.r12 ∧ s.reg .r13 = f.r13 ∧
    s.reg .r14 = f.r14 ∧ s.reg .r15 = f.r15

/-- The frame of the caller at the first instruction of a function: the return address is on top of the stack. -/
def _root_.Spec.Frame.Calls (f : Spec.Frame) (s : Cpu) : Prop :=
  s.mem.Holds (s.reg .rsp).toNat (natBytes 8 f.pc.toNat) ∧ s.reg .rsp + 8 = f.rsp ∧ s.reg .rbx = f.rbx ∧
    s.reg .rbp = f.rbp ∧ s.reg .r12 = f.r12 ∧ s.reg .r13 = f.r13 ∧ s.reg .r14 = f.r14 ∧ s.reg .r15 = f.r15

/-- The eight words of a jmp_buf. -/
def frameWords (f : Spec.Frame) : List (BitVec 64) := [f.rbx, f.rbp, f.r12, f.r13, f.r14, f.r15, f.rsp, f.pc]

/-- The bytes of a jmp_buf. -/
def frameBytes (f : Spec.Frame) : List Byte := (frameWords f).flatMap fun w => natBytes 8 w.toNat

theorem fetch_holds {s : Cpu} {a : Nat} {w : BitVec 64} (h : s.mem.Holds a (natBytes 8 w.toNat)) :
    s.fetch a = .ok w := by
  have := Mem.loadBytes_holds h
  rw [length_natBytes] at this
  simp only [Cpu.fetch, this, Res.ok_bind, bytesNat_natBytes]
  have : w.toNat % 256 ^ 8 = w.toNat := Nat.mod_eq_of_lt w.isLt
  rw [this]
  show Res.ok _ = _
  simp

theorem addr_eq {s : Cpu} {o e : Nat} {b : Reg} (h : (s.reg b).toNat = e) (hs : e + o < 2 ^ 64) : s.addr o b = e + o := by
  simp only [Cpu.addr, BitVec.toNat_add, BitVec.toNat_ofNat, h]
  rw [Nat.add_mod_mod]; exact Nat.mod_eq_of_lt hs

theorem frame_words {m : Mem} {e : Nat} {f : Spec.Frame} (h : m.Holds e (frameBytes f)) :
    m.Holds e (natBytes 8 f.rbx.toNat) ∧ m.Holds (e + 8) (natBytes 8 f.rbp.toNat) ∧
    m.Holds (e + 16) (natBytes 8 f.r12.toNat) ∧ m.Holds (e + 24) (natBytes 8 f.r13.toNat) ∧
    m.Holds (e + 32) (natBytes 8 f.r14.toNat) ∧ m.Holds (e + 40) (natBytes 8 f.r15.toNat) ∧
    m.Holds (e + 48) (natBytes 8 f.rsp.toNat) ∧ m.Holds (e + 56) (natBytes 8 f.pc.toNat) := by
  simp only [frameBytes, frameWords, List.flatMap_cons, List.flatMap_nil, List.append_nil, Mem.holds_append,
    length_natBytes, Nat.add_assoc] at h
  exact h

theorem length_frameBytes (f : Spec.Frame) : (frameBytes f).length = 64 := by
  simp [frameBytes, frameWords, length_natBytes]

theorem exec_store (c : List Instr) (t : Cpu) (r : Reg) (o e : Nat) (he : (t.reg .rdi).toNat = e) (hs : e + 64 ≤ 2 ^ 64)
    (hm : t.mem.Mapped e 64) (ho : o + 8 ≤ 64) :
    execute (.store r o .rdi :: c) 0 t =
      execute c 0 { t with mem := t.mem.write (e + o) (natBytes 8 (t.reg r).toNat) } := by
  rw [execute, addr_eq he (by omega), Mem.storeBytes_mapped, Res.ok_bind]
  intro i hi
  rw [length_natBytes] at hi
  rw [Nat.add_assoc]
  exact hm (o + i) (by omega)

theorem exec_load (c : List Instr) (t : Cpu) (d b : Reg) (o e : Nat) (w : BitVec 64) (he : (t.reg b).toNat = e)
    (hs : e + o < 2 ^ 64) (hm : t.mem.Holds (e + o) (natBytes 8 w.toNat)) :
    execute (.load o b d :: c) 0 t = execute c 0 (t.set d w) := by
  rw [execute, addr_eq he hs, fetch_holds hm, Res.ok_bind]

theorem setjmp_eq (s : Cpu) (e : Nat) (f : Spec.Frame) (he : (s.reg .rdi).toNat = e) (hs : e + 64 ≤ 2 ^ 64)
    (hm : s.mem.Mapped e 64) (hf : f.Calls s) (hsp : (s.reg .rsp).toNat + 8 ≤ e ∨ e + 64 ≤ (s.reg .rsp).toNat) :
    ∃ s', setjmp s = .ok (f.pc, s') ∧ f.Is s' ∧ s'.reg .rax = 0 ∧ s'.mem = s.mem.write e (frameBytes f) := by
  obtain ⟨hpc, hrsp, h1, h2, h3, h4, h5, h6⟩ := hf
  have hmw : s.mem.write e (frameBytes f) = ((((((((s.mem.write (e + 0) (natBytes 8 f.rbx.toNat)).write (e + 8)
      (natBytes 8 f.rbp.toNat)).write (e + 16) (natBytes 8 f.r12.toNat)).write (e + 24) (natBytes 8 f.r13.toNat)).write
      (e + 32) (natBytes 8 f.r14.toNat)).write (e + 40) (natBytes 8 f.r15.toNat)).write (e + 48)
      (natBytes 8 f.rsp.toNat)).write (e + 56) (natBytes 8 f.pc.toNat)) := by
    simp only [frameBytes, frameWords, List.flatMap_cons, List.flatMap_nil, List.append_nil, Mem.write_append,
      length_natBytes, Nat.add_assoc, Nat.add_zero]
  have hlen : ∀ v, (natBytes 8 v).length = 8 := length_natBytes 8
  have hret : ∀ (m : Mem) (o v : Nat), o + 8 ≤ 64 → m.Holds (s.reg .rsp).toNat (natBytes 8 f.pc.toNat) →
      (m.write (e + o) (natBytes 8 v)).Holds (s.reg .rsp).toNat (natBytes 8 f.pc.toNat) := by
    intro m o v ho h
    refine Mem.Holds.write h ?_
    rw [hlen, hlen]; omega
  have hsplt : (s.reg .rsp).toNat + 0 < 2 ^ 64 := (s.reg .rsp).isLt
  rw [setjmp, setjmpCode]
  rw [exec_store _ _ _ 0 e]
  rw [exec_store _ _ _ 8 e]
  rw [exec_store _ _ _ 16 e]
  rw [exec_store _ _ _ 24 e]
  rw [exec_store _ _ _ 32 e]
  rw [exec_store _ _ _ 40 e]
  rw [execute]
  rw [exec_store _ _ _ 48 e]
  rw [exec_load _ _ .rdx .rsp 0 (s.reg .rsp).toNat f.pc]
  rw [exec_store _ _ _ 56 e]
  rw [execute, execute]
  simp only [Cpu.set, reduceIte, reduceCtorEq, h1, h2, h3, h4, h5, h6]
  rw [show (s.reg .rsp + BitVec.ofNat 64 8) = f.rsp from hrsp, ← hmw]
  rw [Cpu.addr]
  simp only [reduceIte, reduceCtorEq, BitVec.add_zero, BitVec.ofNat_eq_ofNat]
  rw [fetch_holds (w := f.pc), Res.ok_bind]
  · refine ⟨_, rfl, ?_, rfl, rfl⟩
    exact ⟨hrsp, h1, h2, h3, h4, h5, h6⟩
  · rw [hmw]
    exact hret _ _ _ (by omega) (hret _ _ _ (by omega) (hret _ _ _ (by omega) (hret _ _ _ (by omega)
        (hret _ _ _ (by omega) (hret _ _ _ (by omega) (hret _ _ _ (by omega) (hret _ _ _ (by omega) hpc)))))))
  any_goals first | exact he | exact hs | exact hsplt | rfl | omega
  any_goals repeat (first | exact hm | apply Mem.Mapped.write)
  exact hret _ _ _ (by omega) (hret _ _ _ (by omega) (hret _ _ _ (by omega) (hret _ _ _ (by omega)
        (hret _ _ _ (by omega) (hret _ _ _ (by omega) (hret _ _ _ (by omega) hpc))))))

theorem longjmp_eq (s : Cpu) (e : Nat) (f : Spec.Frame) (he : (s.reg .rdi).toNat = e) (hs : e + 64 ≤ 2 ^ 64)
    (hf : s.mem.Holds e (frameBytes f)) :
    ∃ s', longjmp s = .ok (f.pc, s') ∧ f.Is s' ∧ s'.reg .rax = (if s.reg .rsi = 0 then 1 else s.reg .rsi) ∧
      s'.mem = s.mem := by
  obtain ⟨h1, h2, h3, h4, h5, h6, h7, h8⟩ := frame_words hf
  have key : ∀ t : Cpu, t.reg .rdi = s.reg .rdi → t.mem = s.mem → ∃ s',
      execute (longjmpCode.drop 4) 0 t = .ok (f.pc, s') ∧ f.Is s' ∧ s'.reg .rax = t.reg .rax ∧ s'.mem = s.mem := by
    intro t hd hmem
    have he' : (t.reg .rdi).toNat = e := by rw [hd]; exact he
    rw [← hmem] at h1 h2 h3 h4 h5 h6 h7 h8
    simp only [longjmpCode, List.drop_succ_cons, List.drop_zero]
    rw [exec_load _ _ _ .rdi 0 e f.rbx]
    rw [exec_load _ _ _ .rdi 8 e f.rbp]
    rw [exec_load _ _ _ .rdi 16 e f.r12]
    rw [exec_load _ _ _ .rdi 24 e f.r13]
    rw [exec_load _ _ _ .rdi 32 e f.r14]
    rw [exec_load _ _ _ .rdi 40 e f.r15]
    rw [exec_load _ _ _ .rdi 48 e f.rsp]
    rw [execute]
    rw [exec_load _ _ _ .rdi 56 e f.pc]
    rw [execute]
    · refine ⟨_, rfl, ⟨rfl, rfl, rfl, rfl, rfl, rfl, rfl⟩, rfl, hmem⟩
    all_goals first | exact he' | omega | assumption
  rw [longjmp, longjmpCode, execute, execute, execute]
  by_cases h0 : s.reg .rsi = 0
  · have hz : (({ s.set .rax (s.reg .rsi) with zf := (s.set .rax (s.reg .rsi)).reg .rax == 0 } : Cpu)).zf = true := by
      simp [Cpu.set, h0]
    rw [if_pos hz, execute]
    obtain ⟨s', h, hI, hr, hm⟩ := key { Cpu.set { s.set .rax (s.reg .rsi) with zf := (s.set .rax (s.reg .rsi)).reg .rax == 0 } .rax
      ((s.set .rax (s.reg .rsi)).reg .rax + 1) with zf := (s.set .rax (s.reg .rsi)).reg .rax + 1 == 0 } rfl rfl
    refine ⟨s', h, hI, ?_, hm⟩
    rw [hr, if_pos h0]
    simp [Cpu.set, h0]
  · have hz : ¬ (({ s.set .rax (s.reg .rsi) with zf := (s.set .rax (s.reg .rsi)).reg .rax == 0 } : Cpu)).zf = true := by
      simpa [Cpu.set] using h0
    rw [if_neg hz, execute]
    obtain ⟨s', h, hI, hr, hm⟩ := key { s.set .rax (s.reg .rsi) with zf := (s.set .rax (s.reg .rsi)).reg .rax == 0 } rfl rfl
    refine ⟨s', h, hI, ?_, hm⟩
    rw [hr, if_neg h0]
    simp [Cpu.set]

/-! ### The properties -/

/-- `setjmp` returns 0 to its caller, with the registers and the stack pointer of the caller, and writes nothing but
the buffer. -/
theorem C103_setjmp (s : Cpu) (e : Nat) (f : Spec.Frame) (he : (s.reg .rdi).toNat = e) (hs : e + 64 ≤ 2 ^ 64)
    (hm : s.mem.Mapped e 64) (hf : f.Calls s) (hsp : (s.reg .rsp).toNat + 8 ≤ e ∨ e + 64 ≤ (s.reg .rsp).toNat) :
    ∃ s', setjmp s = .ok (f.pc, s') ∧ f.Is s' ∧ s'.reg .rax = 0 ∧
      ∀ a, ¬ (e ≤ a ∧ a < e + 64) → s'.mem a = s.mem a := by
  obtain ⟨s', h, hI, hr, hmem⟩ := setjmp_eq s e f he hs hm hf hsp
  refine ⟨s', h, hI, hr, fun a ha => ?_⟩
  rw [hmem, Mem.write_outside]
  rw [length_frameBytes]; omega

/-- What happens to a program between its calls: `set` is a call of `setjmp`, `jump` one of `longjmp`, and `work` is
anything else, with any registers and any memory as long as the buffers are kept.  `saved` has for each buffer the
frame of the last `setjmp` with it. -/
inductive JmpReach (bufs : List Nat) : (Nat → Option Spec.Frame) → Cpu → Prop
  | start (s : Cpu) (hm : ∀ e ∈ bufs, s.mem.Mapped e 64) : JmpReach bufs (fun _ => none) s
  | work (saved : Nat → Option Spec.Frame) (s s' : Cpu) (h : JmpReach bufs saved s)
      (hk : ∀ e ∈ bufs, ∀ i, i < 64 → s'.mem (e + i) = s.mem (e + i)) : JmpReach bufs saved s'
  | set (saved : Nat → Option Spec.Frame) (s s' : Cpu) (f : Spec.Frame) (pc : BitVec 64) (h : JmpReach bufs saved s)
      (he : (s.reg .rdi).toNat ∈ bufs) (hf : f.Calls s)
      (hsp : ∀ e ∈ bufs, (s.reg .rsp).toNat + 8 ≤ e ∨ e + 64 ≤ (s.reg .rsp).toNat)
      (hr : setjmp s = .ok (pc, s')) : JmpReach bufs (fun e => if e = (s.reg .rdi).toNat then some f else saved e) s'
  | jump (saved : Nat → Option Spec.Frame) (s s' : Cpu) (pc : BitVec 64) (h : JmpReach bufs saved s)
      (he : (s.reg .rdi).toNat ∈ bufs) (hsv : saved (s.reg .rdi).toNat ≠ none)
      (hr : longjmp s = .ok (pc, s')) : JmpReach bufs saved s'

/-- The buffers of a program: objects of 64 bytes that do not overlap. -/
def JmpBuffers (bufs : List Nat) : Prop :=
  (∀ e ∈ bufs, e + 64 ≤ 2 ^ 64) ∧ ∀ e ∈ bufs, ∀ d ∈ bufs, e ≠ d → e + 64 ≤ d ∨ d + 64 ≤ e

theorem jmp_reach_inv {bufs : List Nat} (hb : JmpBuffers bufs) {saved : Nat → Option Spec.Frame} {s : Cpu}
    (h : JmpReach bufs saved s) : (∀ e ∈ bufs, s.mem.Mapped e 64) ∧
      ∀ e ∈ bufs, ∀ f, saved e = some f → s.mem.Holds e (frameBytes f) := by
  induction h with
  | start s hm => exact ⟨hm, by simp⟩
  | work saved s s' _ hk ih =>
    refine ⟨fun e he i hi => ?_, fun e he f hf i hi => ?_⟩
    · rw [hk e he i hi]; exact ih.1 e he i hi
    · rw [hk e he i (by rw [length_frameBytes] at hi; exact hi)]; exact ih.2 e he f hf i hi
  | set saved s s' f pc _ he hf hsp hr ih =>
    obtain ⟨s2, h2, _, _, hm2⟩ := setjmp_eq s _ f rfl (hb.1 _ he) (ih.1 _ he) hf (hsp _ he)
    rw [h2] at hr
    injection hr with hr; injection hr with _ hr; subst hr
    rw [hm2]
    refine ⟨fun e hE => (ih.1 e hE).write _ _, fun e hE g hg => ?_⟩
    simp only at hg
    by_cases hee : e = (s.reg .rdi).toNat
    · rw [if_pos hee] at hg; injection hg with hg; subst hg; subst hee
      exact Mem.write_holds _ _ _
    · rw [if_neg hee] at hg
      refine Mem.Holds.write (ih.2 e hE g hg) ?_
      rw [length_frameBytes, length_frameBytes]
      have := hb.2 e hE _ he hee
      omega
  | jump saved s s' pc _ he hsv hr ih =>
    obtain ⟨f, hf⟩ := Option.ne_none_iff_exists'.1 hsv
    obtain ⟨s2, h2, _, _, hm2⟩ := longjmp_eq s _ f rfl (hb.1 _ he) (ih.2 _ he f hf)
    rw [h2] at hr
    injection hr with hr; injection hr with _ hr; subst hr
    rw [hm2]; exact ih

/-- Full statement: whatever the program did since, `longjmp` with a buffer returns from the last `setjmp` with this
buffer: it goes on where that call returned, with the stack pointer and the registers of its caller, memory as it is
now, and the answer `val`, or 1 if `val` is 0.  `val` is an int, the lower half of a register. -/
def C103_longjmp_full : Prop := ∀ (bufs : List Nat), JmpBuffers bufs → ∀ (saved : Nat → Option Spec.Frame) (s : Cpu),
  JmpReach bufs saved s → (s.reg .rdi).toNat ∈ bufs → ∀ f, saved (s.reg .rdi).toNat = some f →
    ∃ s', longjmp s = .ok (f.pc, s') ∧ f.Is s' ∧ s'.mem = s.mem ∧
      (s'.reg .rax).setWidth 32 = (if (s.reg .rsi).setWidth 32 = 0#32 then 1#32 else (s.reg .rsi).setWidth 32)

/-- The full statement, if a `val` of 0 fills its register. -/
theorem C103_longjmp_partial (bufs : List Nat) (hb : JmpBuffers bufs) (saved : Nat → Option Spec.Frame) (s : Cpu)
    (h : JmpReach bufs saved s) (he : (s.reg .rdi).toNat ∈ bufs) (f : Spec.Frame)
    (hf : saved (s.reg .rdi).toNat = some f) (hv : (s.reg .rsi).setWidth 32 = 0#32 → s.reg .rsi = 0) :
    ∃ s', longjmp s = .ok (f.pc, s') ∧ f.Is s' ∧ s'.mem = s.mem ∧
      (s'.reg .rax).setWidth 32 = (if (s.reg .rsi).setWidth 32 = 0#32 then 1#32 else (s.reg .rsi).setWidth 32) := by
  obtain ⟨s', h1, hI, hr, hm⟩ := longjmp_eq s _ f rfl (hb.1 _ he) ((jmp_reach_inv hb h).2 _ he f hf)
  refine ⟨s', h1, hI, hm, ?_⟩
  rw [hr]
  by_cases h0 : s.reg .rsi = 0
  · rw [if_pos h0, h0]; decide
  · rw [if_neg h0, if_neg fun e => h0 (hv e)]

/-- A frame for the cases below: goes on at 0x401000. -/
def demoFrame : Spec.Frame := ⟨0x401000, 0x7000, 1, 2, 3, 4, 5, 6⟩

/-- The state at a call of `setjmp` from `demoFrame` with a buffer at 0x5000; `val` for later is in rsi. -/
def demoCpu (val : BitVec 64) : Cpu where
  reg := fun r => match r with
    | .rdi => 0x5000 | .rsi => val | .rsp => 0x6ff8 | .rbx => 1 | .rbp => 2 | .r12 => 3 | .r13 => 4 | .r14 => 5
    | .r15 => 6 | _ => 0
  zf := false
  mem := fun a => if 0x6ff8 ≤ a ∧ a < 0x7000 then (natBytes 8 0x401000)[a - 0x6ff8]? else
    if 0x5000 ≤ a ∧ a < 0x5040 then some 0 else none

theorem demo_mapped (val : BitVec 64) : (demoCpu val).mem.Mapped 0x5000 64 := by
  intro i hi
  refine ⟨0, ?_⟩
  simp only [demoCpu]
  rw [if_neg (by omega), if_pos (by omega)]

theorem demo_calls (val : BitVec 64) : demoFrame.Calls (demoCpu val) := by
  refine ⟨?_, rfl, rfl, rfl, rfl, rfl, rfl, rfl⟩
  show Mem.Holds _ 0x6ff8 (natBytes 8 0x401000)
  intro i hi
  simp only [length_natBytes] at hi
  simp only [demoCpu]
  rw [if_pos (by omega), Nat.add_sub_cancel_left]
  exact List.getElem?_eq_getElem _

/-- The state after the call returned, about to call `longjmp`. -/
theorem demo_reach (val : BitVec 64) : ∃ s, JmpReach [0x5000] (fun e => if e = 0x5000 then some demoFrame else none) s ∧
    s.reg .rdi = 0x5000 ∧ s.reg .rsi = val := by
  obtain ⟨s', h, _, _, hm⟩ := setjmp_eq (demoCpu val) 0x5000 demoFrame rfl (by omega) (demo_mapped val) (demo_calls val)
    (Or.inr (by simp [demoCpu]))
  have h1 : JmpReach [0x5000] _ (demoCpu val) := .start _ (by simpa using demo_mapped val)
  have h2 := JmpReach.set _ _ _ demoFrame _ h1 (by simp [demoCpu]) (demo_calls val) (by simp [demoCpu]) h
  exact ⟨{ demoCpu val with mem := s'.mem }, .work _ _ _ h2 (fun _ _ _ _ => rfl), rfl, rfl⟩

theorem demo_buffers : JmpBuffers [0x5000] := by
  refine ⟨by simp, ?_⟩
  intro e he d hd h
  simp only [List.mem_singleton] at he hd
  omega

/-- `test %rax,%rax` looks at 64 bits: when the upper half of the register of an int argument is not clean, as the ABI
allows, `longjmp(env,0)` makes `setjmp` return 0 a second time. -/
theorem C103_longjmp_refuted : ¬ C103_longjmp_full := by
  intro hfull
  obtain ⟨s, hr, hd, hv⟩ := demo_reach 0x100000000
  have hd' : (s.reg .rdi).toNat = 0x5000 := by rw [hd]; rfl
  obtain ⟨s', h1, _, _, hx⟩ := hfull [0x5000] demo_buffers _ s hr (by simp [hd']) demoFrame (by simp [hd'])
  obtain ⟨s2, h2, _, hr2, _⟩ := longjmp_eq s 0x5000 demoFrame hd' (by omega)
    ((jmp_reach_inv demo_buffers hr).2 _ (by simp) _ (by simp))
  rw [h2] at h1
  injection h1 with h1; injection h1 with _ h1; subst h1
  rw [hr2, hv] at hx
  revert hx; decide

/-- `setjmp` in `demoFrame`, then `longjmp` with 7. -/
example : ∃ s s' : Cpu, JmpReach [0x5000] (fun e => if e = 0x5000 then some demoFrame else none) s ∧
    longjmp s = .ok (0x401000, s') ∧ s'.reg .rsp = 0x7000 ∧ s'.reg .r15 = 6 ∧ (s'.reg .rax).setWidth 32 = 7#32 := by
  obtain ⟨s, hr, hd, hv⟩ := demo_reach 7
  have hd' : (s.reg .rdi).toNat = 0x5000 := by rw [hd]; rfl
  obtain ⟨s', h1, hI, _, hx⟩ := C103_longjmp_partial [0x5000] demo_buffers _ s hr (by simp [hd']) demoFrame (by simp [hd'])
    (by rw [hv]; decide)
  refine ⟨s, s', hr, h1, hI.1, hI.2.2.2.2.2.2, ?_⟩
  rw [hx, hv]; decide

/-- C103: the call of `setjmp` in `demoFrame`. -/
example : ∃ s', setjmp (demoCpu 7) = .ok (0x401000, s') ∧ s'.reg .rsp = 0x7000 ∧ s'.reg .rax = 0 := by
  obtain ⟨s', h1, h2, h3, -⟩ := C103_setjmp (demoCpu 7) 0x5000 demoFrame rfl (by omega) (demo_mapped 7) (demo_calls 7)
    (Or.inr (by simp [demoCpu]))
  exact ⟨s', h1, h2.1, h3⟩

end Minilib

import Verif.Model.Wrappers
/-
C98: the wrappers of system calls make the call they are named after, with their arguments.
-/

set_option autoImplicit false

namespace Minilib
open Spec

/-- The arguments have the types of the parameters. -/
def _root_.Spec.OfType : CTy → Int → Prop
  | .i, v => -2147483648 ≤ v ∧ v ≤ 2147483647
  | .u, v => 0 ≤ v ∧ v ≤ 4294967295
  | .l, v => -9223372036854775808 ≤ v ∧ v ≤ 18446744073709551615

def _root_.Spec.OfTypes (ts : List CTy) (args : List Int) : Prop :=
  ts.length = args.length ∧ ∀ (i : Nat) t v, ts[i]? = some t → args[i]? = some v → Spec.OfType t v

/-- Whatever is in the registers before, the kernel makes the call of that name with the arguments. -/
def _root_.Spec.Faithful (w : Wrapper) : Prop :=
  ∀ args, Spec.OfTypes w.params args → ∀ before, Spec.Invokes (w.run args before).1 (w.run args before).2 w.call args

/-- The test for one parameter: `i` its position. -/
def fits (i : Nat) : List CTy → List KTy → Bool
  | [], [] => true
  | t :: ts, k :: ks => (k == .w || t == .l || decide (3 ≤ i)) && fits (i + 1) ts ks
  | _, _ => false

/-- A wrapper is in order when the table has its call at its number, with parameters that are not wider than its own, four at most. -/
def Wrapper.good (w : Wrapper) : Bool :=
  match callTable[headerNr w.call]? with
  | some (c, sig) => decide (c = w.call) && fits 0 w.params sig && decide (w.params.length ≤ 4)
  | none => false

theorem fits_len : ∀ {i : Nat} {ts : List CTy} {ks : List KTy}, fits i ts ks = true → ks.length = ts.length
  | _, [], [], _ => rfl
  | _, [], _ :: _, h => by simp [fits] at h
  | _, _ :: _, [], h => by simp [fits] at h
  | i, t :: ts, k :: ks, h => by
    simp only [fits, Bool.and_eq_true] at h
    simp [fits_len h.2]

theorem fits_get : ∀ {i : Nat} {ts : List CTy} {ks : List KTy}, fits i ts ks = true → ∀ (j : Nat) {t : CTy} {k : KTy},
    ts[j]? = some t → ks[j]? = some k → k = .w ∨ t = .l ∨ 3 ≤ i + j
  | _, [], _, _, j, _, _, h, _ => by simp at h
  | _, _ :: _, [], h, _, _, _, _, _ => by simp [fits] at h
  | i, t :: ts, k :: ks, h, 0, t', k', h1, h2 => by
    simp only [List.getElem?_cons_zero, Option.some.injEq] at h1 h2
    subst h1; subst h2
    simp only [fits, Bool.and_eq_true, Bool.or_eq_true, beq_iff_eq, decide_eq_true_eq] at h
    rcases h.1 with (h | h) | h
    · exact .inl h
    · exact .inr (.inl h)
    · exact .inr (.inr (by omega))
  | i, t :: ts, k :: ks, h, j + 1, t', k', h1, h2 => by
    simp only [fits, Bool.and_eq_true] at h
    have := fits_get h.2 j (by simpa using h1) (by simpa using h2)
    rwa [show i + 1 + j = i + (j + 1) by omega] at this

theorem fits_iff : ∀ {i : Nat} {ts : List CTy} {ks : List KTy}, ks.length = ts.length →
    (∀ (j : Nat) (t : CTy) (k : KTy), ts[j]? = some t → ks[j]? = some k → k = .w ∨ t = .l ∨ 3 ≤ i + j) → fits i ts ks = true
  | _, [], [], _, _ => rfl
  | _, [], _ :: _, h, _ => by simp at h
  | _, _ :: _, [], h, _ => by simp at h
  | i, t :: ts, k :: ks, h, H => by
    simp only [fits, Bool.and_eq_true, Bool.or_eq_true, beq_iff_eq, decide_eq_true_eq]
    refine ⟨?_, fits_iff (by simpa using h) (fun j t k h1 h2 => ?_)⟩
    · rcases H 0 t k rfl rfl with h | h | h
      · exact .inl (.inl h)
      · exact .inl (.inr h)
      · exact .inr (by omega)
    · have := H (j + 1) t k (by simpa using h1) (by simpa using h2)
      rwa [show i + 1 + j = i + (j + 1) by omega]

/-- A register that holds its operand. -/
theorem operandReg_gets {i : Nat} {t : CTy} {k : KTy} {v : Int} {b : BitVec 64} (h : k = .w ∨ t = .l ∨ 3 ≤ i) : Spec.Gets k (operandReg i t v b) v := by
  have low : (BitVec.ofInt 64 v).setWidth 32 = BitVec.ofInt 32 v := by
    apply BitVec.eq_of_toNat_eq
    simp only [BitVec.toNat_setWidth, BitVec.toNat_ofInt]
    omega
  have lowr : ∀ hi, (inRegister hi (BitVec.ofInt 32 v)).setWidth 32 = BitVec.ofInt 32 v := by
    intro hi
    unfold inRegister
    apply BitVec.eq_of_toNat_eq
    rw [BitVec.toNat_setWidth, BitVec.toNat_append, Nat.shiftLeft_eq, Nat.mul_comm, ← Nat.two_pow_add_eq_or_of_lt (BitVec.isLt _)]
    have := (BitVec.ofInt 32 v).isLt
    omega
  unfold operandReg
  cases k with
  | w =>
    simp only [Spec.Gets]
    split
    · exact low
    · cases t
      · exact lowr _
      · exact lowr _
      · exact low
  | l =>
    simp only [Spec.Gets]
    split
    · rfl
    · rcases h with h | h | h
      · cases h
      · subst h; rfl
      · omega

theorem retOperands_mem {n i : Nat} (hn : n ≤ 4) (hi : i < n) : i ∈ retOperands n := by
  match n, hn with
  | 0, _ => omega
  | 1, _ => simp [retOperands]; omega
  | 2, _ => simp [retOperands]; omega
  | 3, _ => simp [retOperands]; omega
  | 4, _ => simp [retOperands]; omega

theorem good_faithful {w : Wrapper} (h : w.good = true) : Spec.Faithful w := by
  unfold Wrapper.good at h
  cases e : callTable[headerNr w.call]? with
  | none => rw [e] at h; cases h
  | some p =>
    obtain ⟨c, sig⟩ := p
    rw [e] at h
    simp only [Bool.and_eq_true, decide_eq_true_eq] at h
    obtain ⟨⟨h1, h2⟩, h3⟩ := h
    subst h1
    intro args ⟨hl, _⟩ before
    refine ⟨sig, e, by rw [fits_len h2, hl], fun i k v hk hv => ?_⟩
    have hi : i < w.params.length := by
      rw [hl]; exact (List.getElem?_eq_some_iff.1 hv).1
    obtain ⟨t, ht⟩ : ∃ t, w.params[i]? = some t := ⟨_, List.getElem?_eq_getElem hi⟩
    simp only [Wrapper.run, asmRegs]
    rw [if_pos (retOperands_mem h3 hi), ht, hv]
    have := fits_get h2 i ht hk
    rw [Nat.zero_add] at this
    exact operandReg_gets this

/-- With arguments 0 and registers full of ones, a wrapper that is not in order does not make its call. -/
theorem faithful_good {w : Wrapper} (h : Spec.Faithful w) : w.good = true := by
  have hz : ∀ (i : Nat) v, (List.replicate w.params.length (0 : Int))[i]? = some v → v = 0 := by
    intro i v hv
    rw [List.getElem?_replicate] at hv
    split at hv
    · exact (Option.some.inj hv).symm
    · cases hv
  have ht : Spec.OfTypes w.params (List.replicate w.params.length 0) := by
    refine ⟨by simp, fun i t v _ hv => ?_⟩
    rw [hz i v hv]
    cases t <;> simp [Spec.OfType]
  obtain ⟨sig, e, hl, H⟩ := h _ ht (fun _ => BitVec.allOnes 64)
  simp only [List.length_replicate] at hl
  simp only [Wrapper.run] at e H
  have key : ∀ (j : Nat) (t : CTy) (k : KTy), w.params[j]? = some t → sig[j]? = some k →
      Spec.Gets k (asmRegs (retOperands w.params.length) w.params (List.replicate w.params.length 0) (fun _ => BitVec.allOnes 64) j) 0 := by
    intro j t k h1 h2
    refine H j k 0 h2 ?_
    rw [List.getElem?_replicate, if_pos (List.getElem?_eq_some_iff.1 h1).1]
  have ones : ∀ k, ¬ Spec.Gets k (BitVec.allOnes 64) 0 := by
    intro k
    cases k <;> simp only [Spec.Gets] <;> decide
  have len : w.params.length ≤ 4 := by
    refine Decidable.byContradiction fun hc => ?_
    have h3 : 3 < w.params.length := by omega
    have h3' : 3 < sig.length := by omega
    have := key 3 _ _ (List.getElem?_eq_getElem h3) (List.getElem?_eq_getElem h3')
    have hn : 3 ∉ retOperands w.params.length := by
      obtain ⟨n, hn⟩ : ∃ n, w.params.length = n + 5 := ⟨w.params.length - 5, by omega⟩
      rw [hn]
      match n with
      | 0 => simp [retOperands]
      | n + 1 => simp [retOperands]
    rw [asmRegs, if_neg hn] at this
    exact ones _ this
  unfold Wrapper.good
  rw [e]
  simp only [Bool.and_eq_true, decide_eq_true_eq]
  refine ⟨⟨trivial, fits_iff hl fun j t k h1 h2 => ?_⟩, len⟩
  have hj : j < w.params.length := (List.getElem?_eq_some_iff.1 h1).1
  refine Decidable.byContradiction fun hc => ?_
  simp only [Nat.zero_add, not_or] at hc
  obtain ⟨c1, c2, c3⟩ := hc
  have := key j t k h1 h2
  rw [asmRegs, if_pos (retOperands_mem len hj), h1, List.getElem?_replicate, if_pos hj] at this
  simp only [operandReg, if_neg c3] at this
  cases k with
  | w => exact c1 rfl
  | l =>
    cases t with
    | l => exact c2 rfl
    | i => revert this; simp only [Spec.Gets]; decide
    | u => revert this; simp only [Spec.Gets]; decide

theorem good_iff (w : Wrapper) : w.good = true ↔ Spec.Faithful w := ⟨good_faithful, faithful_good⟩

/-- C98: the numbers of the header are the numbers of the kernel. -/
theorem C98_numbers (c : Call) : ∃ sig, callTable[headerNr c]? = some (c, sig) := by
  cases c <;> exact ⟨_, rfl⟩

/-- C98, full statement: every wrapper makes its call with its arguments. -/
def C98_wrappers_full : Prop := ∀ w ∈ stubs ++ sysStubs, Spec.Faithful w

/-- The wrappers with plain names that do not: five or six arguments (execveat, getsockopt, mount, prctl, recvfrom, sendto, setsockopt, splice), an
argument narrower than that of the kernel (ftruncate, lseek, mprotect, read, write), another number of arguments (clone, rt_sigreturn). -/
def brokenStubs : List Call :=
  [.execveat, .getsockopt, .mount, .prctl, .recvfrom, .sendto, .setsockopt, .splice, .ftruncate, .lseek, .mprotect, .read, .write, .clone, .rt_sigreturn]

/-- The wrappers with the prefix sys_ that do not: another number of arguments (arch_prctl, iopl, rt_sigreturn, add_key, clone, io_getevents,
open_by_handle_at), five or six arguments (all others). -/
def brokenSys : List Call :=
  [.arch_prctl, .iopl, .rt_sigreturn, .add_key, .clone, .io_getevents, .open_by_handle_at,
   .epoll_pwait, .fanotify_mark, .fchownat, .fsetxattr, .futex, .get_mempolicy, .getsockopt, .kcmp, .kexec_file_load, .keyctl, .linkat, .lsetxattr, .mbind, .mmap, .mount,
   .move_pages, .mq_timedreceive, .mq_timedsend, .mremap, .msgrcv, .name_to_handle_at, .perf_event_open, .ppoll, .prctl, .preadv, .process_vm_readv, .process_vm_writev,
   .pselect6, .pwritev, .recvfrom, .recvmmsg, .remap_file_pages, .renameat2, .select, .sendto, .setsockopt, .setxattr, .splice, .waitid]

theorem stubs_good : ∀ w ∈ stubs, w.good = !brokenStubs.contains w.call := by decide +kernel

theorem sysStubs_good : ∀ w ∈ sysStubs, w.good = !brokenSys.contains w.call := by decide +kernel

/-- C98: all wrappers with plain names but the fifteen above make their call, with all arguments, whatever is in the registers. -/
theorem C98_stubs_partial {w : Wrapper} (hw : w ∈ stubs) (hb : w.call ∉ brokenStubs) : Spec.Faithful w := by
  refine good_faithful ?_
  rw [stubs_good w hw]
  simpa using hb

/-- C98: the same for the prefix sys_. -/
theorem C98_sys_partial {w : Wrapper} (hw : w ∈ sysStubs) (hb : w.call ∉ brokenSys) : Spec.Faithful w := by
  refine good_faithful ?_
  rw [sysStubs_good w hw]
  simpa using hb

/-- C98: the others do not. -/
theorem C98_stubs_refuted {w : Wrapper} (hw : w ∈ stubs) (hb : w.call ∈ brokenStubs) : ¬ Spec.Faithful w := by
  rw [← good_iff, stubs_good w hw]
  simpa using hb

theorem C98_sys_refuted {w : Wrapper} (hw : w ∈ sysStubs) (hb : w.call ∈ brokenSys) : ¬ Spec.Faithful w := by
  rw [← good_iff, sysStubs_good w hw]
  simpa using hb

theorem C98_wrappers_refuted : ¬ C98_wrappers_full := by
  intro h
  have : (⟨false, .sendto, [.i, .l, .l, .u, .l, .i]⟩ : Wrapper) ∈ stubs := by unfold stubs; simp
  exact C98_stubs_refuted this (by decide) (h _ (List.mem_append_left _ this))

/-! ### registers with nothing in their upper halves -/

/-- The upper halves of the registers are 0 (a compiler that loads the arguments by instructions of 32 bits leaves them so). -/
def _root_.Spec.UpperZero (before : Nat → BitVec 64) : Prop := ∀ i, (before i).toNat < 4294967296

/-- Number and order of the parameters are those of the kernel, four at most. -/
def Wrapper.sameArity (w : Wrapper) : Bool :=
  match callTable[headerNr w.call]? with
  | some (c, sig) => decide (c = w.call) && decide (sig.length = w.params.length) && decide (w.params.length ≤ 4)
  | none => false

theorem operandReg_zero {i : Nat} {t : CTy} {k : KTy} {v : Int} {b : BitVec 64} (hb : b.toNat < 4294967296) (hv : Spec.OfType t v) (h0 : 0 ≤ v) :
    Spec.Gets k (operandReg i t v b) v := by
  by_cases h : k = .w ∨ t = .l ∨ 3 ≤ i
  · exact operandReg_gets h
  · simp only [not_or] at h
    obtain ⟨h1, h2, h3⟩ := h
    have hi : b.extractLsb' 32 32 = 0#32 := by
      apply BitVec.eq_of_toNat_eq
      simp only [BitVec.extractLsb'_toNat, BitVec.toNat_ofNat]
      rw [Nat.shiftRight_eq_div_pow, Nat.div_eq_of_lt (by omega)]
    have key : v < 4294967296 → inRegister (b.extractLsb' 32 32) (BitVec.ofInt 32 v) = BitVec.ofInt 64 v := by
      intro hlt
      rw [hi]
      unfold inRegister
      apply BitVec.eq_of_toNat_eq
      rw [BitVec.toNat_append]
      simp only [BitVec.toNat_ofInt, BitVec.toNat_ofNat]
      simp
      omega
    cases k with
    | w => exact absurd rfl h1
    | l =>
      cases t with
      | l => exact absurd rfl h2
      | i => simp only [Spec.Gets, operandReg, if_neg h3]; exact key (by simp only [Spec.OfType] at hv; omega)
      | u => simp only [Spec.Gets, operandReg, if_neg h3]; exact key (by simp only [Spec.OfType] at hv; omega)

/-- C98: with the upper halves 0, the wrappers with narrow arguments (ftruncate, lseek, mprotect, read, write) make their call, too, with arguments
that are not negative. -/
theorem C98_narrow_partial {w : Wrapper} (hw : w ∈ stubs) (hb : w.call ∈ [Call.ftruncate, .lseek, .mprotect, .read, .write]) {args : List Int}
    (ht : Spec.OfTypes w.params args) (h0 : ∀ v ∈ args, 0 ≤ v) {before : Nat → BitVec 64} (hz : Spec.UpperZero before) :
    Spec.Invokes (w.run args before).1 (w.run args before).2 w.call args := by
  have hs : ∀ w ∈ stubs, [Call.ftruncate, .lseek, .mprotect, .read, .write].contains w.call = true → w.sameArity = true := by decide +kernel
  have h := hs w hw (by simpa using hb)
  unfold Wrapper.sameArity at h
  cases e : callTable[headerNr w.call]? with
  | none => rw [e] at h; cases h
  | some p =>
    obtain ⟨c, sig⟩ := p
    rw [e] at h
    simp only [Bool.and_eq_true, decide_eq_true_eq] at h
    obtain ⟨⟨h1, h2⟩, h3⟩ := h
    subst h1
    obtain ⟨hl, htv⟩ := ht
    refine ⟨sig, e, by rw [h2, hl], fun i k v hk hv => ?_⟩
    have hi : i < w.params.length := by
      rw [hl]; exact (List.getElem?_eq_some_iff.1 hv).1
    obtain ⟨t, ht⟩ : ∃ t, w.params[i]? = some t := ⟨_, List.getElem?_eq_getElem hi⟩
    simp only [Wrapper.run, asmRegs]
    rw [if_pos (retOperands_mem h3 hi), ht, hv]
    exact operandReg_zero (hz i) (htv i t v ht hv) (h0 v (List.mem_of_getElem? hv))

/-- C98: a negative length becomes a large one: the kernel gets 4294967295 for `write(1, buf, -1)`. -/
theorem C98_negative_refuted {buf : Int} {before : Nat → BitVec 64} (hz : Spec.UpperZero before) :
    ((Wrapper.mk false .write [.i, .l, .i]).run [1, buf, -1] before).2 2 = 4294967295#64 := by
  have h := hz 2
  simp only [Wrapper.run, asmRegs, retOperands, List.length_cons, List.length_nil]
  rw [if_pos (by decide)]
  simp only [List.getElem?_cons_succ, List.getElem?_cons_zero, operandReg]
  rw [if_neg (by decide)]
  have hi : (before 2).extractLsb' 32 32 = 0#32 := by
    apply BitVec.eq_of_toNat_eq
    simp only [BitVec.extractLsb'_toNat, BitVec.toNat_ofNat]
    rw [Nat.shiftRight_eq_div_pow, Nat.div_eq_of_lt (by omega)]
  rw [hi]
  decide

/-! ### wrappers written by hand -/

/-- All arguments are operands, and fit. -/
theorem asmRegs_invokes {nr : Nat} {c : Call} {sig : List KTy} {ops : List Nat} {params : List CTy} {args : List Int} {before : Nat → BitVec 64}
    (e : callTable[nr]? = some (c, sig)) (hf : fits 0 params sig = true) (ho : ∀ i, i < params.length → i ∈ ops) (hl : params.length = args.length) :
    Spec.Invokes nr (asmRegs ops params args before) c args := by
  refine ⟨sig, e, by rw [fits_len hf, hl], fun i k v hk hv => ?_⟩
  have hi : i < params.length := by
    rw [hl]; exact (List.getElem?_eq_some_iff.1 hv).1
  obtain ⟨t, ht⟩ : ∃ t, params[i]? = some t := ⟨_, List.getElem?_eq_getElem hi⟩
  rw [asmRegs, if_pos (ho i hi), ht, hv]
  have := fits_get hf i ht hk
  rw [Nat.zero_add] at this
  exact operandReg_gets this

/-- C98: `select`, `poll`, `open`, `ioctl` and `sys_brk` make their calls. -/
theorem C98_select (fd r w x t : Int) (before : Nat → BitVec 64) :
    Spec.Invokes (selectRun [fd, r, w, x, t] before).1 (selectRun [fd, r, w, x, t] before).2 .select [fd, r, w, x, t] :=
  asmRegs_invokes (sig := [.w, .l, .l, .l, .l]) rfl rfl (by decide) rfl

theorem C98_poll (fds n t : Int) (before : Nat → BitVec 64) :
    Spec.Invokes (pollRun [fds, n, t] before).1 (pollRun [fds, n, t] before).2 .poll [fds, n, t] :=
  asmRegs_invokes (sig := [.l, .w, .w]) rfl rfl (by decide) rfl

theorem C98_open (s f m : Int) (before : Nat → BitVec 64) :
    Spec.Invokes (openRun [s, f, m] before).1 (openRun [s, f, m] before).2 .«open» [s, f, m] :=
  asmRegs_invokes (sig := [.l, .w, .w]) rfl rfl (by decide) rfl

theorem C98_ioctl (fd r a : Int) (before : Nat → BitVec 64) :
    Spec.Invokes (ioctlRun [fd, r, a] before).1 (ioctlRun [fd, r, a] before).2 .ioctl [fd, r, a] :=
  asmRegs_invokes (sig := [.w, .w, .l]) rfl rfl (by decide) rfl

theorem C98_sys_brk (a : Int) (before : Nat → BitVec 64) :
    Spec.Invokes (brkRun [a] before).1 (brkRun [a] before).2 .brk [a] :=
  asmRegs_invokes (sig := [.l]) rfl rfl (by decide) rfl

/-- C98: `mremap` never calls mremap: it is a select. -/
theorem C98_mremap_refuted (args : List Int) (before : Nat → BitVec 64) :
    ¬ Spec.Invokes (mremapRun args before).1 (mremapRun args before).2 .mremap args ∧
      ∃ sig, callTable[(mremapRun args before).1]? = some (.select, sig) := by
  refine ⟨?_, ⟨_, rfl⟩⟩
  rintro ⟨sig, e, -⟩
  have : callTable[(mremapRun args before).1]? = some (Call.select, [.w, .l, .l, .l, .l]) := rfl
  rw [this] at e
  cases e

/-- C98: `mmap` makes its call when the upper half of the register of `prot` is 0, the protection is not negative and the descriptor is not, either. -/
theorem C98_mmap_partial {addr len prot flags fd off : Int} (hp : 0 ≤ prot) (hp2 : prot ≤ 2147483647) (hf : 0 ≤ fd) {before : Nat → BitVec 64}
    (hz : Spec.UpperZero before) :
    Spec.Invokes (mmapRun addr len prot flags fd off before).1 (mmapRun addr len prot flags fd off before).2 .mmap [addr, len, prot, flags, fd, off] := by
  refine ⟨[.l, .l, .l, .l, .l, .l], rfl, rfl, fun i k v hk hv => ?_⟩
  simp only [mmapRun]
  rw [if_neg (by omega)]
  have hi : i < 6 := (List.getElem?_eq_some_iff.1 hv).1
  have htp : ∃ t, [CTy.l, .l, .i, .i, .i, .l][i]? = some t := ⟨_, List.getElem?_eq_getElem hi⟩
  obtain ⟨t, ht⟩ := htp
  rw [asmRegs, if_pos (by simp; omega), ht, hv]
  match i, hi with
  | 0, _ => cases ht; exact operandReg_gets (.inr (.inl rfl))
  | 1, _ => cases ht; exact operandReg_gets (.inr (.inl rfl))
  | 2, _ => cases ht; cases hv; exact operandReg_zero (hz 2) ⟨by omega, by omega⟩ hp
  | 3, _ => exact operandReg_gets (.inr (.inr (by omega)))
  | 4, _ => exact operandReg_gets (.inr (.inr (by omega)))
  | 5, _ => exact operandReg_gets (.inr (.inr (by omega)))

/-- C98: with a negative descriptor it maps the file of descriptor 0, where the call of the kernel is an error. -/
theorem C98_mmap_refuted {addr len prot flags fd off : Int} (hf : fd < 0) (hf2 : -2147483648 ≤ fd) (before : Nat → BitVec 64) :
    (mmapRun addr len prot flags fd off before).2 4 = 0#64 ∧
      ¬ Spec.Invokes (mmapRun addr len prot flags fd off before).1 (mmapRun addr len prot flags fd off before).2 .mmap [addr, len, prot, flags, fd, off] := by
  have h0 : (mmapRun addr len prot flags fd off before).2 4 = 0#64 := by
    simp only [mmapRun, asmRegs]
    rw [if_pos (by decide), if_pos hf]
    rfl
  refine ⟨h0, ?_⟩
  rintro ⟨sig, e, -, H⟩
  have : callTable[(mmapRun addr len prot flags fd off before).1]? = some (Call.mmap, [.l, .l, .l, .l, .l, .l]) := rfl
  rw [this] at e
  cases e
  have := H 4 .l fd rfl rfl
  rw [h0] at this
  have h2 := congrArg BitVec.toInt this
  simp only [BitVec.toInt_ofInt] at h2
  have h3 : Int.bmod fd (2 ^ 64) = fd := Int.bmod_eq_of_le (by omega) (by omega)
  rw [h3] at h2
  simp at h2
  omega

/-! ### functions that call a wrapper -/

/-- C98: `creat` is open with O_WRONLY|O_CREAT|O_TRUNC (577). -/
theorem C98_creat (s mode : Int) (before : Nat → BitVec 64) :
    Spec.Invokes (creatRun s mode before).1 (creatRun s mode before).2 .«open» [s, 577, mode] := C98_open s 577 mode before

/-- C98: `mkfifo` is mknod with the type of a fifo (4096) besides the permissions, whatever they are. -/
theorem C98_mkfifo (path : Int) {mode : Nat} (hm : mode < 4096) (before : Nat → BitVec 64) :
    Spec.Invokes (mkfifoRun path mode before).1 (mkfifoRun path mode before).2 .mknod [path, 4096 + (mode : Int), 0] := by
  have : (((mode ||| 0o10000 : Nat) : Int)) = 4096 + (mode : Int) := by
    have h := Nat.two_pow_add_eq_or_of_lt (i := 12) (b := mode) (by omega) 1
    rw [Nat.or_comm]
    simp only [Nat.mul_one] at h
    rw [show (0o10000 : Nat) = 2 ^ 12 from rfl, ← h]
    simp
  unfold mkfifoRun
  rw [this]
  exact asmRegs_invokes (sig := [.l, .w, .w]) rfl rfl (by decide) rfl

/-- C98: `wait` and `waitpid` are wait4 without usage. -/
theorem C98_wait (status : Int) (before : Nat → BitVec 64) :
    Spec.Invokes (waitRun status before).1 (waitRun status before).2 .wait4 [-1, status, 0, 0] :=
  asmRegs_invokes (sig := [.w, .l, .w, .l]) rfl rfl (by decide) rfl

theorem C98_waitpid (pid status options : Int) (before : Nat → BitVec 64) :
    Spec.Invokes (waitpidRun pid status options before).1 (waitpidRun pid status options before).2 .wait4 [pid, status, options, 0] :=
  asmRegs_invokes (sig := [.w, .l, .w, .l]) rfl rfl (by decide) rfl

/-- C98: `killpg` is kill with the negative number of the group. -/
theorem C98_killpg {pid sig : Int} (h1 : -2147483648 < pid) (h2 : pid ≤ 2147483647) (before : Nat → BitVec 64) :
    ∃ r, killpgRun pid sig before = .ok r ∧ Spec.Invokes r.1 r.2 .kill [-pid, sig] := by
  refine ⟨(Wrapper.mk false .kill [.i, .i]).run [-pid, sig] before, ?_, asmRegs_invokes (sig := [.w, .w]) rfl rfl (by decide) rfl⟩
  unfold killpgRun
  rw [show ckInt (-pid) = .ok (-pid) from ?_]
  · rfl
  · unfold ckInt
    rw [if_pos (by omega)]

/-- C98, full statements for `recv` and `fexecve`. -/
def C98_recv_full : Prop :=
  ∀ (fd buf len flags : Int) before, Spec.Invokes (recvRun fd buf len flags before).1 (recvRun fd buf len flags before).2 .recvfrom [fd, buf, len, flags, 0, 0]

def C98_fexecve_full : Prop :=
  ∀ (fd empty argv envp : Int) before,
    Spec.Invokes (fexecveRun fd empty argv envp before).1 (fexecveRun fd empty argv envp before).2 .execveat [fd, empty, argv, envp, 4096]

/-- C98: the flags of `recv` do not get to the kernel: they are what was in r10. -/
theorem C98_recv_refuted : ¬ C98_recv_full := by
  intro h
  obtain ⟨sig, e, -, H⟩ := h 0 0 0 0 (fun _ => BitVec.allOnes 64)
  have : callTable[(recvRun 0 0 0 0 (fun _ => BitVec.allOnes 64)).1]? = some (Call.recvfrom, [.w, .l, .l, .w, .l, .l]) := rfl
  rw [this] at e
  cases e
  have := H 3 .w 0 rfl rfl
  simp only [Spec.Gets] at this
  revert this
  decide

/-- C98: nor does the environment of `fexecve`. -/
theorem C98_fexecve_refuted : ¬ C98_fexecve_full := by
  intro h
  obtain ⟨sig, e, -, H⟩ := h 0 0 0 0 (fun _ => BitVec.allOnes 64)
  have : callTable[(fexecveRun 0 0 0 0 (fun _ => BitVec.allOnes 64)).1]? = some (Call.execveat, [.w, .l, .l, .l, .w]) := rfl
  rw [this] at e
  cases e
  have := H 3 .l 0 rfl rfl
  simp only [Spec.Gets] at this
  revert this
  decide

/-! ### cases -/

/-- C98: a wrapper with four arguments. -/
example : Spec.Faithful ⟨false, .wait4, [.i, .l, .i, .l]⟩ :=
  C98_stubs_partial (by unfold stubs; simp) (by decide)

example : Spec.Faithful ⟨true, .read, [.u, .l, .l]⟩ :=
  C98_sys_partial (by decide +kernel) (by decide)

/-- C98: `write(1, 65536, 5)`. -/
example : Spec.Invokes ((Wrapper.mk false .write [.i, .l, .i]).run [1, 65536, 5] (fun _ => 77#64)).1
    ((Wrapper.mk false .write [.i, .l, .i]).run [1, 65536, 5] (fun _ => 77#64)).2 .write [1, 65536, 5] := by
  refine C98_narrow_partial (w := ⟨false, .write, [.i, .l, .i]⟩) (by unfold stubs; simp) (by decide) ⟨rfl, ?_⟩ (by decide) (fun _ => by decide)
  intro i t v h1 h2
  match i with
  | 0 => cases h1; cases h2; exact ⟨by decide, by decide⟩
  | 1 => cases h1; cases h2; exact ⟨by decide, by decide⟩
  | 2 => cases h1; cases h2; exact ⟨by decide, by decide⟩
  | i + 3 => cases h1

/-- C98: the other wrappers, with dirty registers; `mmap` with registers whose upper halves are zero. -/
example : Spec.Invokes (openRun [65536, 577, 420] (fun _ => 77#64)).1 (openRun [65536, 577, 420] (fun _ => 77#64)).2 .«open» [65536, 577, 420] ∧
    Spec.Invokes (mkfifoRun 65536 420 (fun _ => 77#64)).1 (mkfifoRun 65536 420 (fun _ => 77#64)).2 .mknod [65536, 4516, 0] ∧
    Spec.Invokes (waitRun 65536 (fun _ => 77#64)).1 (waitRun 65536 (fun _ => 77#64)).2 .wait4 [-1, 65536, 0, 0] ∧
    (∃ r, killpgRun 12 9 (fun _ => 77#64) = .ok r ∧ Spec.Invokes r.1 r.2 .kill [-12, 9]) ∧
    Spec.Invokes (mmapRun 0 4096 3 34 5 0 (fun _ => 77#64)).1 (mmapRun 0 4096 3 34 5 0 (fun _ => 77#64)).2 .mmap [0, 4096, 3, 34, 5, 0] :=
  ⟨C98_open _ _ _ _, C98_mkfifo 65536 (mode := 420) (by decide) _, C98_wait _ _, C98_killpg (by decide) (by decide) _,
   C98_mmap_partial (by decide) (by decide) (by decide) (fun _ => by decide)⟩

example : Spec.Invokes (creatRun 65536 420 (fun _ => 77#64)).1 (creatRun 65536 420 (fun _ => 77#64)).2 .«open» [65536, 577, 420] ∧
    Spec.Invokes (waitpidRun 12 65536 1 (fun _ => 77#64)).1 (waitpidRun 12 65536 1 (fun _ => 77#64)).2 .wait4 [12, 65536, 1, 0] ∧
    Spec.Invokes (selectRun [4, 65536, 0, 0, 0] (fun _ => 77#64)).1 (selectRun [4, 65536, 0, 0, 0] (fun _ => 77#64)).2 .select [4, 65536, 0, 0, 0] ∧
    Spec.Invokes (pollRun [65536, 2, -1] (fun _ => 77#64)).1 (pollRun [65536, 2, -1] (fun _ => 77#64)).2 .poll [65536, 2, -1] ∧
    Spec.Invokes (ioctlRun [0, 21505, 65536] (fun _ => 77#64)).1 (ioctlRun [0, 21505, 65536] (fun _ => 77#64)).2 .ioctl [0, 21505, 65536] ∧
    Spec.Invokes (brkRun [0] (fun _ => 77#64)).1 (brkRun [0] (fun _ => 77#64)).2 .brk [0] :=
  ⟨C98_creat _ _ _, C98_waitpid _ _ _ _, C98_select _ _ _ _ _ _, C98_poll _ _ _ _, C98_ioctl _ _ _ _, C98_sys_brk _ _⟩

/-! ### signals, terminals, clone_t -/

/-- C98: `sigprocmask` and `sigsuspend` are the system calls with the size of the kernel's sets. -/
theorem C98_sigprocmask (how set oldset : Int) (before : Nat → BitVec 64) :
    Spec.Invokes (sigprocmaskRun how set oldset before).1 (sigprocmaskRun how set oldset before).2 .rt_sigprocmask [how, set, oldset, 8] :=
  asmRegs_invokes (sig := [.w, .l, .l, .l]) rfl rfl (by decide) rfl

theorem C98_sigsuspend (mask : Int) (before : Nat → BitVec 64) :
    Spec.Invokes (sigsuspendRun mask before).1 (sigsuspendRun mask before).2 .rt_sigsuspend [mask, 8] :=
  asmRegs_invokes (sig := [.l, .l]) rfl rfl (by decide) rfl

/-- C98: `unlockpt` is the request that sets the lock of the terminal. -/
theorem C98_unlockpt (fd p : Int) (before : Nat → BitVec 64) :
    Spec.Invokes (unlockptRun fd p before).1 (unlockptRun fd p before).2 .ioctl [fd, 1074025521, p] := C98_ioctl fd 1074025521 p before

/-- C98, full statement for `clone_t`: with some value for the unused fifth argument it is the call with these flags. -/
def C98_clone_full : Prop :=
  ∀ (flags tid ptid : Int) before, ∃ tls, Spec.Invokes (cloneTRun flags tid ptid before).1 (cloneTRun flags tid ptid before).2 .clone [flags, 0, tid, ptid, tls]

/-- C98: the kernel takes 64 bits as flags, 32 of which are left as they were. -/
theorem C98_clone_refuted : ¬ C98_clone_full := by
  intro h
  obtain ⟨tls, sig, e, -, H⟩ := h 0 0 0 (fun _ => BitVec.allOnes 64)
  have : callTable[(cloneTRun 0 0 0 (fun _ => BitVec.allOnes 64)).1]? = some (Call.clone, [.l, .l, .l, .l, .l]) := rfl
  rw [this] at e
  cases e
  have := H 0 .l 0 rfl rfl
  simp only [Spec.Gets] at this
  revert this
  decide

/-- C98: the other arguments of `clone_t` are passed on, and the flags when the upper half of their register is clear and they
are not negative. -/
theorem C98_clone_partial {flags tid ptid : Int} {before : Nat → BitVec 64} (h0 : 0 ≤ flags) (h1 : flags ≤ 2147483647)
    (hb : (before 0).extractLsb' 32 32 = 0#32) :
    ∃ tls, Spec.Invokes (cloneTRun flags tid ptid before).1 (cloneTRun flags tid ptid before).2 .clone [flags, 0, tid, ptid, tls] := by
  refine ⟨(before 4).toInt, [.l, .l, .l, .l, .l], rfl, rfl, ?_⟩
  have e0 : (cloneTRun flags tid ptid before).2 0 = BitVec.ofInt 64 flags := by
    have : (cloneTRun flags tid ptid before).2 0 = inRegister ((before 0).extractLsb' 32 32) (BitVec.ofInt 32 flags) := rfl
    rw [this, hb]
    unfold inRegister
    obtain ⟨n, rfl⟩ := Int.eq_ofNat_of_zero_le h0
    apply BitVec.eq_of_toNat_eq
    rw [BitVec.toNat_append]
    simp
    omega
  intro i k v hk hv
  match i with
  | 0 => cases hk; cases hv; exact e0
  | 1 => cases hk; cases hv; rfl
  | 2 => cases hk; cases hv; rfl
  | 3 => cases hk; cases hv; rfl
  | 4 => cases hk; cases hv; simp [Spec.Gets, cloneTRun, asmRegs]
  | n + 5 => simp at hk

example : Spec.Invokes (sigprocmaskRun 0 65536 0 (fun _ => 77#64)).1 (sigprocmaskRun 0 65536 0 (fun _ => 77#64)).2 .rt_sigprocmask [0, 65536, 0, 8] ∧
    Spec.Invokes (sigsuspendRun 65536 (fun _ => 77#64)).1 (sigsuspendRun 65536 (fun _ => 77#64)).2 .rt_sigsuspend [65536, 8] ∧
    Spec.Invokes (unlockptRun 4 65536 (fun _ => 77#64)).1 (unlockptRun 4 65536 (fun _ => 77#64)).2 .ioctl [4, 1074025521, 65536] ∧
    ∃ tls, Spec.Invokes (cloneTRun 256 65536 65544 (fun _ => 77#64)).1 (cloneTRun 256 65536 65544 (fun _ => 77#64)).2 .clone [256, 0, 65536, 65544, tls] :=
  ⟨C98_sigprocmask _ _ _ _, C98_sigsuspend _ _, C98_unlockpt _ _ _, C98_clone_partial (by decide) (by decide) (by decide)⟩

end Minilib

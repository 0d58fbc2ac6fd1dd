import Verif.Model.Syscall
/-
C81: the wrappers of the system calls.
-/

set_option autoImplicit false

/-- What a call answers, and errno, when the kernel answers `r`. -/
def Spec.answer (r : Int) (errno : Int) : Int × Int := if -4095 ≤ r ∧ r < 0 then (-1, -r) else (r, errno)

/-- The position lseek goes to. -/
def Spec.seekBase (pos size : Nat) (whence : Int) : Int := if whence = 0 then 0 else if whence = 1 then pos else size

namespace Minilib
open Mem

theorem low_word {r : BitVec 64} {x : Int} (h : r.toInt = x) : (r.setWidth 32).toInt = Int.bmod x 4294967296 := by
  subst h
  have : r.toNat % 4294967296 = (r.setWidth 32).toNat := by simp [BitVec.toNat_setWidth]
  have hr := r.isLt
  rw [BitVec.toInt_eq_toNat_bmod, ← this, BitVec.toInt_eq_toNat_bmod]
  simp only [Int.bmod_def]
  split <;> split <;> split <;> omega

theorem wrap_small {u : Bool} {r : BitVec 64} {errno x : Int} (h : r.toInt = x) (h1 : 0 ≤ x) (h2 : x ≤ 2147483647) :
    sysWrap u r errno = .ok (x, errno) := by
  have e := low_word h
  have e2 : Int.bmod x 4294967296 = x := by rw [Int.bmod_def]; split <;> omega
  rw [e2] at e
  unfold sysWrap
  simp only [e]
  rw [if_neg (show ¬ x < 0 by omega)]
  cases u <;> rfl

/-- C81, full statement: whatever the kernel answers, the wrapper gives the caller the answer, and an error in errno. -/
def C81_wrapper_full : Prop :=
  ∀ (r : BitVec 64) (errno : Int), -4095 ≤ r.toInt → sysWrap true r errno = .ok (Spec.answer r.toInt errno)

/-- C81 (partial: answers up to INT_MAX), with errno and, for the build without it, the negative number of the error as the result. -/
theorem C81_wrapper_partial (r : BitVec 64) (errno : Int) (h1 : -4095 ≤ r.toInt) (h2 : r.toInt ≤ 2147483647) :
    sysWrap true r errno = .ok (Spec.answer r.toInt errno) ∧ sysWrap false r errno = .ok (r.toInt, errno) := by
  by_cases h : 0 ≤ r.toInt
  · refine ⟨?_, wrap_small rfl h h2⟩
    unfold Spec.answer
    rw [if_neg (by omega)]
    exact wrap_small rfl h h2
  · have e := low_word (r := r) rfl
    have e2 : Int.bmod r.toInt 4294967296 = r.toInt := by rw [Int.bmod_def]; split <;> omega
    rw [e2] at e
    unfold sysWrap Spec.answer
    simp only [e]
    rw [if_pos (show r.toInt < 0 by omega), if_pos (show -4095 ≤ r.toInt ∧ r.toInt < 0 by omega)]
    exact ⟨by rw [if_pos trivial, ckInt_ok (by omega) (by omega)]; rfl, rfl⟩

/-- C81: what the wrapper makes of any other answer: only the lower half of the register counts. -/
theorem C81_large_refuted (r : BitVec 64) (errno : Int) (h : 2147483648 ≤ r.toInt) :
    (r.toInt % 4294967296 < 2147483648 → sysWrap true r errno = .ok (r.toInt % 4294967296, errno)) ∧
    (2147483648 < r.toInt % 4294967296 → sysWrap true r errno = .ok (-1, 4294967296 - r.toInt % 4294967296)) ∧
    (r.toInt % 4294967296 = 2147483648 → sysWrap true r errno = .ub) := by
  have e := low_word (r := r) rfl
  have b1 : r.toInt % 4294967296 < 2147483648 → Int.bmod r.toInt 4294967296 = r.toInt % 4294967296 := by rw [Int.bmod_def]; split <;> omega
  have b2 : 2147483648 ≤ r.toInt % 4294967296 → Int.bmod r.toInt 4294967296 = r.toInt % 4294967296 - 4294967296 := by rw [Int.bmod_def]; split <;> omega
  unfold sysWrap
  simp only [e, if_true]
  refine ⟨fun h1 => ?_, fun h1 => ?_, fun h1 => ?_⟩
  · rw [b1 h1, if_neg (by omega)]; rfl
  · rw [b2 (by omega), if_pos (by omega), ckInt_ok (by omega) (by omega)]
    simp only [Res.ok_bind, Res.pure_eq, Res.ok.injEq, Prod.mk.injEq, true_and]; omega
  · rw [b2 (by omega), if_pos (by omega), ckInt, if_neg (by omega)]; rfl

/-- C81 fails: a position of three billion bytes is reported as an error. -/
theorem C81_wrapper_refuted : ¬ C81_wrapper_full := by
  intro h
  have h1 := h 3000000000#64 0 (by decide)
  rw [(C81_large_refuted 3000000000#64 0 (by decide)).2.1 (by decide)] at h1
  exact absurd h1 (by decide)

/-! ### lseek, ftruncate -/

theorem inReg_zero (x : Int) : (inRegister 0#32 (BitVec.ofInt 32 x)).toInt = x % 4294967296 := by
  have h : (inRegister 0#32 (BitVec.ofInt 32 x)).toNat = (x % 4294967296).toNat := by
    unfold inRegister
    rw [BitVec.toNat_append, BitVec.toNat_ofInt]
    simp
  have : (inRegister 0#32 (BitVec.ofInt 32 x)).toNat < 4294967296 := by omega
  rw [BitVec.toInt_eq_toNat_of_lt (by omega), h]; omega

theorem toInt_pos {x : Int} (h1 : 0 ≤ x) (h2 : x ≤ 9223372036854775807) : (BitVec.ofInt 64 x).toInt = x := by
  rw [BitVec.toInt_ofInt, Int.bmod_def]; split <;> omega

theorem kLseek_ok {f : FilePos} {off w : Int} (hw : w = 0 ∨ w = 1 ∨ w = 2) (h1 : 0 ≤ Spec.seekBase f.pos f.size w + off)
    (h2 : Spec.seekBase f.pos f.size w + off ≤ 9223372036854775807) :
    kLseek f off w = ({ f with pos := (Spec.seekBase f.pos f.size w + off).toNat }, BitVec.ofInt 64 (Spec.seekBase f.pos f.size w + off)) := by
  unfold kLseek Spec.seekBase at *
  rcases hw with rfl | rfl | rfl
  · simp only [if_true] at *; rw [if_neg (by omega)]
  · simp only [if_true, if_neg (show ¬ (1 : Int) = 0 by decide)] at *; rw [if_neg (by omega)]
  · simp only [if_true, if_neg (show ¬ (2 : Int) = 0 by decide), if_neg (show ¬ (2 : Int) = 1 by decide)] at *; rw [if_neg (by omega)]

/-- C81 (partial: forwards, and up to INT_MAX): lseek moves to the position and answers it.  `hi = 0` is what an instruction that loads the 32
bit argument leaves in the register. -/
theorem C81_lseek_partial {u : Bool} {f : FilePos} {off w errno : Int} (hw : w = 0 ∨ w = 1 ∨ w = 2) (h0 : 0 ≤ off)
    (h2 : Spec.seekBase f.pos f.size w + off ≤ 2147483647) :
    lseek u 0#32 f off w errno =
      .ok ({ f with pos := (Spec.seekBase f.pos f.size w + off).toNat }, Spec.seekBase f.pos f.size w + off, errno) := by
  have hb : 0 ≤ Spec.seekBase f.pos f.size w := by
    unfold Spec.seekBase
    split
    · omega
    · split <;> omega
  unfold lseek
  simp only [inReg_zero]
  rw [show off % 4294967296 = off by omega, kLseek_ok hw (by omega) (by omega),
    wrap_small (toInt_pos (x := Spec.seekBase f.pos f.size w + off) (by omega) (by omega)) (by omega) (by omega)]
  rfl

/-- C81: an unknown origin, and a position in front of the file or behind the last possible one: EINVAL, and the file stays where it is, whatever
is in the upper half of the register. -/
theorem C81_lseek_einval {hi : BitVec 32} {f : FilePos} {off w errno : Int}
    (h : ¬ (w = 0 ∨ w = 1 ∨ w = 2) ∨ Spec.seekBase f.pos f.size w + (hi ++ BitVec.ofInt 32 off).toInt < 0 ∨
      9223372036854775807 < Spec.seekBase f.pos f.size w + (hi ++ BitVec.ofInt 32 off).toInt) :
    lseek true hi f off w errno = .ok (f, -1, 22) := by
  have hk : kLseek f (hi ++ BitVec.ofInt 32 off).toInt w = (f, BitVec.ofInt 64 (-22)) := by
    unfold kLseek
    unfold Spec.seekBase at h
    by_cases h0 : w = 0
    · subst h0
      replace h := h.resolve_left (fun h => h (by decide))
      simp only [if_true] at h ⊢
      rw [if_pos (by omega)]
    by_cases h1 : w = 1
    · subst h1
      replace h := h.resolve_left (fun h => h (by decide))
      simp only [if_true, if_neg (show ¬ (1 : Int) = 0 by decide)] at h ⊢
      rw [if_pos (by omega)]
    by_cases h2 : w = 2
    · subst h2
      replace h := h.resolve_left (fun h => h (by decide))
      simp only [if_true, if_neg (show ¬ (2 : Int) = 0 by decide), if_neg (show ¬ (2 : Int) = 1 by decide)] at h ⊢
      rw [if_pos (by omega)]
    · simp only [if_neg h0, if_neg h1, if_neg h2]
  unfold lseek inRegister
  simp only [hk]
  have : sysWrap true (BitVec.ofInt 64 (-22)) errno = .ok (-1, 22) := by unfold sysWrap; rfl
  rw [this]
  rfl

/-- C81: one byte in front of the file, the register being all ones in its upper half; and origin 7. -/
example : lseek true 0xffffffff#32 ⟨10, 20⟩ (-1) 0 5 = .ok (⟨10, 20⟩, -1, 22) ∧ lseek true 0#32 ⟨10, 20⟩ 3 7 5 = .ok (⟨10, 20⟩, -1, 22) :=
  ⟨C81_lseek_einval (Or.inr (Or.inl (by decide))), C81_lseek_einval (Or.inl (by decide))⟩

/-- C81: backwards: lseek answers the position asked for, but the file is four gigabytes behind it. -/
theorem C81_lseek_back_refuted {u : Bool} {f : FilePos} {off w errno : Int} (hw : w = 1 ∨ w = 2) (h0 : -2147483648 ≤ off) (h1 : off < 0)
    (h2 : 0 ≤ Spec.seekBase f.pos f.size w + off) (h3 : Spec.seekBase f.pos f.size w + off ≤ 2147483647) :
    lseek u 0#32 f off w errno =
      .ok ({ f with pos := (Spec.seekBase f.pos f.size w + off + 4294967296).toNat }, Spec.seekBase f.pos f.size w + off, errno) := by
  unfold lseek
  simp only [inReg_zero]
  have hw' : w = 0 ∨ w = 1 ∨ w = 2 := Or.inr hw
  have e : off % 4294967296 = off + 4294967296 := by omega
  rw [e, kLseek_ok hw' (by omega) (by omega)]
  simp only []
  have e2 := low_word (toInt_pos (x := Spec.seekBase f.pos f.size w + (off + 4294967296)) (by omega) (by omega))
  have e3 : Int.bmod (Spec.seekBase f.pos f.size w + (off + 4294967296)) 4294967296 = Spec.seekBase f.pos f.size w + off := by
    rw [Int.bmod_def]; split <;> omega
  rw [e3] at e2
  have : sysWrap u (BitVec.ofInt 64 (Spec.seekBase f.pos f.size w + (off + 4294967296))) errno = .ok (Spec.seekBase f.pos f.size w + off, errno) := by
    unfold sysWrap
    simp only [e2]
    rw [if_neg (show ¬ Spec.seekBase f.pos f.size w + off < 0 by omega)]
    cases u <;> rfl
  rw [this, Int.add_assoc]
  rfl

/-- C81: behind two gigabytes: the file is at the position asked for, but lseek answers an error. -/
theorem C81_lseek_far_refuted {f : FilePos} {off errno : Int} (h0 : 2147483648 < off) (h1 : off < 4294967296) :
    lseek true 0#32 f off 0 errno = .ok ({ f with pos := off.toNat }, -1, 4294967296 - off) := by
  unfold lseek
  simp only [inReg_zero]
  have hb : Spec.seekBase f.pos f.size 0 = 0 := rfl
  rw [show off % 4294967296 = off by omega, kLseek_ok (Or.inl rfl) (by omega) (by omega)]
  have e := toInt_pos (x := Spec.seekBase f.pos f.size 0 + off) (by omega) (by omega)
  rw [(C81_large_refuted (BitVec.ofInt 64 (Spec.seekBase f.pos f.size 0 + off)) errno (by omega)).2.1 (by rw [e]; omega), e, hb]
  simp only [Int.zero_add, Res.ok_bind, Res.pure_eq]
  rw [show off % 4294967296 = off by omega]

/-- C81, full statement for lseek: the file moves to the position, and lseek answers it. -/
def C81_lseek_full : Prop :=
  ∀ (hi : BitVec 32) (f : FilePos) (off w errno : Int), (w = 0 ∨ w = 1 ∨ w = 2) → 0 ≤ Spec.seekBase f.pos f.size w + off →
    Spec.seekBase f.pos f.size w + off ≤ 9223372036854775807 →
    lseek true hi f off w errno = .ok ({ f with pos := (Spec.seekBase f.pos f.size w + off).toNat }, Spec.seekBase f.pos f.size w + off, errno)

/-- C81 fails. -/
theorem C81_lseek_refuted : ¬ C81_lseek_full := by
  intro h
  have h1 := h 0#32 ⟨10, 20⟩ (-1) 1 0 (by decide) (by decide) (by decide)
  rw [C81_lseek_back_refuted (by decide) (by decide) (by decide) (by decide) (by decide)] at h1
  have := congrArg (fun p : FilePos => p.pos) (congrArg Prod.fst (Res.ok.inj h1))
  exact absurd this (by decide)

/-- C81 (partial: less than 2^32 bytes): ftruncate sets the size of the file and nothing else. -/
theorem C81_ftruncate_partial {u : Bool} {f : FilePos} {len : Nat} {errno : Int} (h : len < 4294967296) :
    ftruncate u 0#32 f len errno = .ok ({ f with size := len }, 0, errno) := by
  unfold ftruncate
  have e := inReg_zero (len : Int)
  rw [show BitVec.ofInt 32 (len : Int) = BitVec.ofNat 32 len from BitVec.ofInt_natCast 32 len] at e
  have e1 : (inRegister 0#32 (BitVec.ofNat 32 len)).toNat = len := by
    unfold inRegister
    rw [BitVec.toNat_append, BitVec.toNat_ofNat]
    simpa using h
  simp only []
  rw [if_neg (by omega), wrap_small (x := 0) rfl (by decide) (by decide), e1]
  rfl

/-- C81: a length of 2^32 bytes or a multiple of it empties the file. -/
theorem C81_ftruncate_refuted {u : Bool} {f : FilePos} {k : Nat} {errno : Int} :
    ftruncate u 0#32 f (k * 4294967296) errno = .ok ({ f with size := 0 }, 0, errno) := by
  have : ftruncate u 0#32 f (k * 4294967296) errno = ftruncate u 0#32 f 0 errno := by
    unfold ftruncate
    rw [show BitVec.ofNat 32 (k * 4294967296) = BitVec.ofNat 32 0 from by
      rw [← BitVec.toNat_inj, BitVec.toNat_ofNat, BitVec.toNat_ofNat]; simp]
  rw [this]
  exact C81_ftruncate_partial (by decide)

/-! ### mprotect -/

/-- C81: mprotect answers the first word of the region instead of 0. -/
theorem C81_mprotect_value_refuted {m : Mem} {a len prot : Nat} {w v : BitVec 32} {errno : Int} (hp : prot ≠ 0) (hw : m.HasW a w) (hv : m.HasW (a + 4) v) :
    mprotect m a len prot 0#64 errno = .ok (m, w.toInt, errno) := by
  unfold mprotect
  have e : kMprotect m a len prot 0#64 = m := if_neg (by simp [hp])
  simp only [e]
  rw [if_neg (by decide), loadW_eq hw, Res.ok_bind, show ((a : Int) + 4) = ((a + 4 : Nat) : Int) by omega, loadW_eq hv]
  rfl

/-- C81: after taking all rights the wrapper reads the region. -/
theorem C81_mprotect_none_refuted {m : Mem} {a len : Nat} {errno : Int} (hl : 0 < len) : mprotect m a len 0 0#64 errno = .ub := by
  unfold mprotect
  rw [if_neg (by decide)]
  have : (kMprotect m a len 0 0#64) a = none := by
    unfold kMprotect
    rw [if_pos ⟨rfl, rfl⟩, if_pos ⟨Nat.le_refl _, by omega⟩]
  have e : (kMprotect m a len 0 0#64).loadW (a : Int) = .ub := by
    simp [loadW, loadBytes, Mem.load, this]
  rw [e]
  rfl

/-- C81 (partial: errors): an error of mprotect is reported, nothing changes. -/
theorem C81_mprotect_partial {m : Mem} {a len prot : Nat} {r : BitVec 64} {errno : Int} (h1 : -4095 ≤ r.toInt) (h2 : r.toInt < 0) :
    mprotect m a len prot r errno = .ok (m, Spec.answer r.toInt errno) := by
  have e := low_word (r := r) rfl
  have e2 : Int.bmod r.toInt 4294967296 = r.toInt := by rw [Int.bmod_def]; split <;> omega
  rw [e2] at e
  unfold mprotect Spec.answer
  have e3 : kMprotect m a len prot r = m := if_neg (by intro h; rw [h.1] at h2; exact absurd h2 (by decide))
  simp only [e, e3]
  rw [if_pos h2, if_pos ⟨h1, h2⟩, ckInt_ok (by omega) (by omega)]
  rfl

example : sysWrap true 4294967301#64 7 = .ok (5, 7) ∧ sysWrap true (BitVec.ofInt 64 (-2)) 7 = .ok (-1, 2) ∧
    lseek true 0#32 ⟨10, 20⟩ (-1) 1 0 = .ok (⟨4294967305, 20⟩, 9, 0) ∧ lseek true 0#32 ⟨10, 20⟩ 5 2 0 = .ok (⟨25, 20⟩, 25, 0) ∧
    ftruncate true 0#32 ⟨10, 20⟩ 4294967301 0 = .ok (⟨10, 5⟩, 0, 0) := by decide +kernel

/-- C81: the answers -2 and 5 of the kernel; seeking from the end, and a length. -/
example : sysWrap true (BitVec.ofInt 64 (-2)) 0 = .ok (-1, 2) ∧ sysWrap true 5#64 0 = .ok (5, 0) ∧
    lseek true 0#32 ⟨3, 10⟩ 4 2 0 = .ok (⟨14, 10⟩, 14, 0) ∧ ftruncate true 0#32 ⟨3, 10⟩ (7 : Nat) 0 = .ok (⟨3, 7⟩, 0, 0) :=
  ⟨(C81_wrapper_partial (BitVec.ofInt 64 (-2)) 0 (by decide) (by decide)).1, (C81_wrapper_partial 5#64 0 (by decide) (by decide)).1,
   C81_lseek_partial (f := ⟨3, 10⟩) (Or.inr (Or.inr rfl)) (by decide) (by decide), C81_ftruncate_partial (f := ⟨3, 10⟩) (by decide)⟩

end Minilib

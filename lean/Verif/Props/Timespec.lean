import Verif.Model.Timespec
/-
C80: arithmetic on struct timespec; sleep and usleep.
-/

set_option autoImplicit false

/-- The time in nanoseconds. -/
def Spec.nanos (s n : Int) : Int := s * 1000000000 + n

namespace Minilib

/-- The time an object holds. -/
def Timespec.time (t : Timespec) : Int := Spec.nanos t.sec t.nsec

/-- A proper time: less than a second of nanoseconds. -/
def Timespec.Proper (t : Timespec) : Prop := 0 ≤ t.nsec ∧ t.nsec < 1000000000

instance (t : Timespec) : Decidable t.Proper := inferInstanceAs (Decidable (_ ∧ _))

def IsLong (x : Int) : Prop := -9223372036854775808 ≤ x ∧ x ≤ 9223372036854775807

theorem ckTime_ok {x : Int} (h : IsLong x) : ckTime x = .ok x := if_pos h
theorem ckTime_ub {x : Int} (h : ¬ IsLong x) : ckTime x = .ub := if_neg h

theorem proper_unique {t u : Timespec} (ht : t.Proper) (hu : u.Proper) (h : t.time = u.time) : t = u := by
  obtain ⟨s, n⟩ := t
  obtain ⟨s', n'⟩ := u
  simp only [Timespec.Proper, Timespec.time, Spec.nanos] at *
  have : s = s' := by omega
  subst this
  have : n = n' := by omega
  rw [this]

/-- C80: the sum: whatever of the three objects are the same, the result is proper and holds the sum of the times, and no other object changes;
defined when the sum of the seconds, without and with the carry, is a `long`. -/
theorem C80_add {m : TsMem} {t u v : Nat} (ht : (m t).Proper) (hu : (m u).Proper) (h1 : IsLong ((m t).sec + (m u).sec))
    (h2 : IsLong (((m t).time + (m u).time) / 1000000000)) :
    ∃ m', timespecadd m t u v = .ok m' ∧ (m' v).Proper ∧ (m' v).time = (m t).time + (m u).time ∧ ∀ a, a ≠ v → m' a = m a := by
  unfold timespecadd
  have e1 : ∀ a s, (m.setSec v s a).nsec = (m a).nsec := by
    intro a s; unfold TsMem.setSec; split
    · next h => rw [h]
    · rfl
  rw [ckTime_ok h1, Res.ok_bind]
  simp only [e1]
  unfold Timespec.Proper at ht hu
  rw [ckTime_ok ⟨by omega, by omega⟩, Res.ok_bind]
  simp only [TsMem.setSec, TsMem.setNsec, if_true, Timespec.time, Spec.nanos] at *
  by_cases hc : 1000000000 ≤ (m t).nsec + (m u).nsec
  · rw [if_pos hc, ckTime_ok (by
      have : ((m t).sec * 1000000000 + (m t).nsec + ((m u).sec * 1000000000 + (m u).nsec)) / 1000000000 = (m t).sec + (m u).sec + 1 := by omega
      rwa [this] at h2), Res.ok_bind, ckTime_ok ⟨by omega, by omega⟩, Res.ok_bind]
    refine ⟨_, rfl, ?_, ?_, fun a ha => ?_⟩
    · simp only [Timespec.Proper, TsMem.setSec, TsMem.setNsec, if_true]; omega
    · simp only [TsMem.setSec, TsMem.setNsec, if_true]; omega
    · simp [TsMem.setSec, TsMem.setNsec, ha]
  · rw [if_neg hc]
    refine ⟨_, rfl, ?_, ?_, fun a ha => ?_⟩
    · simp only [Timespec.Proper, TsMem.setSec, TsMem.setNsec, if_true]; omega
    · simp only [TsMem.setSec, TsMem.setNsec, if_true]; omega
    · simp [TsMem.setSec, TsMem.setNsec, ha]

/-- C80: the difference. -/
theorem C80_sub {m : TsMem} {t u v : Nat} (ht : (m t).Proper) (hu : (m u).Proper) (h1 : IsLong ((m t).sec - (m u).sec))
    (h2 : IsLong (((m t).time - (m u).time) / 1000000000)) :
    ∃ m', timespecsub m t u v = .ok m' ∧ (m' v).Proper ∧ (m' v).time = (m t).time - (m u).time ∧ ∀ a, a ≠ v → m' a = m a := by
  unfold timespecsub
  have e1 : ∀ a s, (m.setSec v s a).nsec = (m a).nsec := by
    intro a s; unfold TsMem.setSec; split
    · next h => rw [h]
    · rfl
  rw [ckTime_ok h1, Res.ok_bind]
  simp only [e1]
  unfold Timespec.Proper at ht hu
  rw [ckTime_ok ⟨by omega, by omega⟩, Res.ok_bind]
  simp only [TsMem.setSec, TsMem.setNsec, if_true, Timespec.time, Spec.nanos] at *
  by_cases hc : (m t).nsec - (m u).nsec < 0
  · rw [if_pos hc, ckTime_ok (by
      have : ((m t).sec * 1000000000 + (m t).nsec - ((m u).sec * 1000000000 + (m u).nsec)) / 1000000000 = (m t).sec - (m u).sec - 1 := by omega
      rwa [this] at h2), Res.ok_bind, ckTime_ok ⟨by omega, by omega⟩, Res.ok_bind]
    refine ⟨_, rfl, ?_, ?_, fun a ha => ?_⟩
    · simp only [Timespec.Proper, TsMem.setSec, TsMem.setNsec, if_true]; omega
    · simp only [TsMem.setSec, TsMem.setNsec, if_true]; omega
    · simp [TsMem.setSec, TsMem.setNsec, ha]
  · rw [if_neg hc]
    refine ⟨_, rfl, ?_, ?_, fun a ha => ?_⟩
    · simp only [Timespec.Proper, TsMem.setSec, TsMem.setNsec, if_true]; omega
    · simp only [TsMem.setSec, TsMem.setNsec, if_true]; omega
    · simp [TsMem.setSec, TsMem.setNsec, ha]

/-- C80: adding a time and subtracting it again, in place, gives the object back. -/
theorem C80_add_sub {m : TsMem} {t u : Nat} (hn : t ≠ u) (ht : (m t).Proper) (hu : (m u).Proper) (h1 : IsLong ((m t).sec + (m u).sec))
    (h2 : IsLong (((m t).time + (m u).time) / 1000000000)) (h3 : IsLong (m t).sec)
    (h4 : IsLong (((m t).time + (m u).time) / 1000000000 - (m u).sec)) :
    ∃ m' m'', timespecadd m t u t = .ok m' ∧ timespecsub m' t u t = .ok m'' ∧ m'' = m := by
  obtain ⟨m', a1, a2, a3, a4⟩ := C80_add (v := t) ht hu h1 h2
  have e := a4 u (Ne.symm hn)
  have es : (m' t).sec = ((m t).time + (m u).time) / 1000000000 := by
    rw [← a3]; unfold Timespec.Proper at a2; simp only [Timespec.time, Spec.nanos]; omega
  obtain ⟨m'', b1, b2, b3, b4⟩ := C80_sub (m := m') (t := t) (u := u) (v := t) a2 (by rw [e]; exact hu) (by rw [e, es]; exact h4) (by
    rw [e, a3]
    have : ((m t).time + (m u).time - (m u).time) / 1000000000 = (m t).sec := by
      unfold Timespec.Proper at ht; simp only [Timespec.time, Spec.nanos]; omega
    rwa [this])
  refine ⟨m', m'', a1, b1, funext fun a => ?_⟩
  by_cases ha : a = t
  · subst ha
    refine proper_unique b2 ht ?_
    rw [b3, e, a3]; omega
  · rw [b4 a ha, a4 a ha]

/-- C80: the six comparisons order proper objects as their times. -/
theorem C80_cmp {m : TsMem} {t u : Nat} (ht : (m t).Proper) (hu : (m u).Proper) :
    (timespeccmp m t u (fun a b => decide (a < b)) = decide ((m t).time < (m u).time)) ∧
    (timespeccmp m t u (fun a b => decide (a ≤ b)) = decide ((m t).time ≤ (m u).time)) ∧
    (timespeccmp m t u (fun a b => decide (a > b)) = decide ((m t).time > (m u).time)) ∧
    (timespeccmp m t u (fun a b => decide (a ≥ b)) = decide ((m t).time ≥ (m u).time)) ∧
    (timespeccmp m t u (fun a b => decide (a = b)) = decide ((m t).time = (m u).time)) ∧
    (timespeccmp m t u (fun a b => decide (a ≠ b)) = decide ((m t).time ≠ (m u).time)) := by
  unfold Timespec.Proper at ht hu
  unfold timespeccmp
  refine ⟨?_, ?_, ?_, ?_, ?_, ?_⟩ <;> split <;> (rw [decide_eq_decide]; simp only [Timespec.time, Spec.nanos]; omega)

/-- C80: timespecclear sets the time 0, timespecisset tells whether the time is another than 0. -/
theorem C80_clear_isset (m : TsMem) (t : Nat) :
    (timespecclear m t t).time = 0 ∧ (∀ a, a ≠ t → timespecclear m t a = m a) ∧ ((m t).Proper → (timespecisset m t = true ↔ (m t).time ≠ 0)) := by
  refine ⟨by simp [timespecclear, TsMem.setSec, TsMem.setNsec, Timespec.time, Spec.nanos], fun a ha => by simp [timespecclear, TsMem.setSec, TsMem.setNsec, ha], fun h => ?_⟩
  unfold Timespec.Proper at h
  simp only [timespecisset, Timespec.time, Spec.nanos, Bool.or_eq_true, decide_eq_true_eq]
  omega

/-- C80, full statement for the arithmetic: defined whenever the result is a struct timespec. -/
def C80_defined_full : Prop :=
  ∀ (m : TsMem) (t u v : Nat), (m t).Proper → (m u).Proper → IsLong (m t).sec → IsLong (m u).sec →
    (IsLong (((m t).time + (m u).time) / 1000000000) → timespecadd m t u v ≠ .ub) ∧
    (IsLong (((m t).time - (m u).time) / 1000000000) → timespecsub m t u v ≠ .ub)

/-- C80 fails: the difference overflows on the way when a second is borrowed afterwards. -/
theorem C80_defined_refuted : ¬ C80_defined_full := by
  intro h
  have := (h (fun a => if a = 0 then ⟨9223372036854775807, 0⟩ else ⟨-1, 1⟩) 0 1 2 (by decide) (by decide) (by constructor <;> decide)
    (by constructor <;> decide)).2 (by constructor <;> decide)
  exact this (by unfold timespecsub; rw [ckTime_ub (by unfold IsLong; decide)]; rfl)

example : ∃ m', timespecadd (fun a => if a = 0 then ⟨3, 600000000⟩ else ⟨4, 700000000⟩) 0 1 0 = .ok m' ∧ m' 0 = ⟨8, 300000000⟩ ∧ m' 1 = ⟨4, 700000000⟩ := by
  obtain ⟨m', h1, h2, h3, h4⟩ := C80_add (m := fun a => if a = 0 then ⟨3, 600000000⟩ else ⟨4, 700000000⟩) (t := 0) (u := 1) (v := 0) (by decide) (by decide)
    (by constructor <;> decide) (by constructor <;> decide)
  exact ⟨m', h1, proper_unique h2 (by decide) (by rw [h3]; decide), h4 1 (by decide)⟩

/-- What the kernel answers: a proper rest of the time, not more than was asked for, and a negative code. -/
def KernelSleeps (k : Timespec → Slept) : Prop :=
  ∀ t l c, k t = .interrupted l c → l.Proper ∧ 0 ≤ l.time ∧ l.time ≤ t.time ∧ -4095 ≤ c ∧ c < 0

/-- C80: usleep asks for exactly the microseconds, as a proper time, for every unsigned int, and answers 0 exactly when they have passed. -/
theorem C80_usleep {k : Timespec → Slept} (hk : KernelSleeps k) (n : Nat) :
    (usleepTime n).Proper ∧ (usleepTime n).time = n * 1000 ∧ (usleep k n = 0 ↔ k (usleepTime n) = .whole) := by
  refine ⟨?_, ?_, ?_⟩
  · simp only [Timespec.Proper, usleepTime]; omega
  · simp only [Timespec.time, Spec.nanos, usleepTime]
    split <;> omega
  · simp only [usleep, nanosleep]
    cases h : k (usleepTime n) with
    | whole => simp
    | interrupted l c =>
      obtain ⟨-, -, -, h4, h5⟩ := hk _ _ _ h
      simp only [reduceCtorEq, iff_false]; omega

/-- C80 (partial: a rest of half a second or more): sleep answers 0 when the whole time has passed, and otherwise the rest rounded to seconds, at
most what was asked for. -/
theorem C80_sleep_partial {k : Timespec → Slept} (hk : KernelSleeps k) (n : Nat) (hn : n < 4294967296) :
    (k ⟨n, 0⟩ = .whole → sleep k n = 0) ∧
    ∀ l c, k ⟨n, 0⟩ = .interrupted l c → sleep k n ≤ n ∧ 2 * l.time - 1000000000 < 2 * (sleep k n * 1000000000 : Nat) ∧
      2 * (sleep k n * 1000000000 : Nat) ≤ 2 * l.time + 1000000000 ∧ (500000000 ≤ l.time → sleep k n ≠ 0) := by
  refine ⟨fun h => by simp [sleep, nanosleep, h], fun l c h => ?_⟩
  obtain ⟨h1, h2, h3, h4, h5⟩ := hk _ _ _ h
  unfold Timespec.Proper at h1
  simp only [Timespec.time, Spec.nanos] at h2 h3 ⊢
  have e : sleep k n = (l.sec + if 500000000 ≤ l.nsec then 1 else 0).toNat := by
    simp only [sleep, nanosleep, h]
    rw [if_pos (by omega)]
    split <;> omega
  rw [e]
  split <;> omega

/-- C80, full statement for sleep: 0 only when the time has passed. -/
def C80_sleep_full : Prop := ∀ (k : Timespec → Slept) (n : Nat), KernelSleeps k → n < 4294967296 → (sleep k n = 0 ↔ k ⟨n, 0⟩ = .whole)

/-- C80 fails: interrupted less than half a second before the end, sleep answers 0. -/
theorem C80_sleep_refuted : ¬ C80_sleep_full := by
  intro h
  have := (h (fun t => if t = ⟨2, 0⟩ then .interrupted ⟨0, 400000000⟩ (-4) else .whole) 2 (by
    intro t l c e
    simp only at e
    by_cases ht : t = ⟨2, 0⟩
    · rw [if_pos ht] at e; cases e; subst ht; decide
    · rw [if_neg ht] at e; cases e) (by decide)).1 (by decide)
  simp at this

example : sleep (fun _ => .interrupted ⟨5, 600000000⟩ (-4)) 10 = 6 ∧ usleepTime 4294967295 = ⟨4294, 967295000⟩ := by decide

example : ∃ m', timespecsub (fun a => if a = 0 then ⟨8, 300000000⟩ else ⟨4, 700000000⟩) 0 1 0 = .ok m' ∧ (m' 0).time = 3600000000 := by
  obtain ⟨m', h1, -, h2, -⟩ := C80_sub (m := fun a => if a = 0 then ⟨8, 300000000⟩ else ⟨4, 700000000⟩) (t := 0) (u := 1) (v := 0) (by decide) (by decide)
    (by constructor <;> decide) (by constructor <;> decide)
  exact ⟨m', h1, by rw [h2]; decide⟩

example : ∃ m' m'', timespecadd (fun a => if a = 0 then ⟨3, 600000000⟩ else ⟨4, 700000000⟩) 0 1 0 = .ok m' ∧ timespecsub m' 0 1 0 = .ok m'' ∧
    m'' 0 = ⟨3, 600000000⟩ := by
  obtain ⟨m', m'', h1, h2, h3⟩ := C80_add_sub (m := fun a => if a = 0 then ⟨3, 600000000⟩ else ⟨4, 700000000⟩) (t := 0) (u := 1) (by decide) (by decide)
    (by decide) (by constructor <;> decide) (by constructor <;> decide) (by constructor <;> decide) (by constructor <;> decide)
  exact ⟨m', m'', h1, h2, by rw [h3]; rfl⟩

example : timespeccmp (fun a => if a = 0 then ⟨3, 600000000⟩ else ⟨3, 700000000⟩) 0 1 (fun a b => decide (a < b)) = true := by
  rw [(C80_cmp (m := fun a => if a = 0 then ⟨3, 600000000⟩ else ⟨3, 700000000⟩) (t := 0) (u := 1) (by decide) (by decide)).1]; decide

/-- C80: `usleep(4294967295)` under a kernel that always sleeps the whole time. -/
example : usleep (fun _ => .whole) 4294967295 = 0 ∧ (usleepTime 4294967295).time = 4294967295000 := by
  have h := C80_usleep (k := fun _ => .whole) (fun _ _ _ h => by cases h) 4294967295
  exact ⟨h.2.2.2 rfl, h.2.1⟩

end Minilib

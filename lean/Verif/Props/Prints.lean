import Verif.Props.Output
import Verif.Model.Prints
/-
C88: the macros of prints.h, and fputc.
-/

set_option autoImplicit false

namespace Minilib
open Mem Spec

theorem sysWrite_accepting {K : WKernel} (hK : Accepting K) (w : Writes) (fd : Int) (l : List Byte) :
    sysWrite K w fd l = (w ++ [(fd, l)], (l.length : Int)) := by
  unfold sysWrite
  rw [hK, Int.min_self, Int.toNat_natCast, List.take_length]

theorem delivered_one (fd fd' : Int) (w : Writes) (l : List Byte) :
    delivered fd' (w ++ [(fd, l)]) = delivered fd' w ++ if fd' = fd then l else [] := by
  rw [delivered_append]
  congr 1
  unfold delivered
  by_cases h : fd' = fd
  · simp [h]
  · simp [h, Ne.symm h]

/-- C88: prints, eprints and fprints deliver their strings one after the other to their descriptor, nothing to any other, and answer the number of bytes. -/
theorem C88_prints {K : WKernel} {m : Mem} {fd : Int} {ps : List Nat} {ss : List (List Byte)} (hK : Accepting K) (hne : ps ≠ []) (ha : AllStr m ps ss)
    (h0 : ∀ p ∈ ps, p ≠ 0) (hn : ps.length < 524000) (hl : ss.flatten.length ≤ 2147483647) (w : Writes) :
    ∃ w', prints K m w fd ps = .ok (w', (ss.flatten.length : Int)) ∧ ∀ f, delivered f w' = delivered f w ++ if f = fd then ss.flatten else [] := by
  cases ps with
  | nil => exact absurd rfl hne
  | cons p ps =>
    cases ss with
    | nil => exact ha.elim
    | cons s ss =>
      have e := C68_dprints (K := K) (fd := fd) (fun w fd l => by rw [hK]; omega) ha.1 ha.2 (fun q hq => h0 q (by simp [hq])) (by simp at hn; omega) hl w []
      rw [offer_accepting hK] at e
      refine ⟨_, e, fun f => ?_⟩
      rw [delivered_append]
      congr 1
      by_cases h : f = fd
      · rw [if_pos h, h, delivered_map]
      · rw [if_neg h]
        unfold delivered
        rw [List.flatMap_eq_nil_iff]
        intro x hx
        simp only [List.mem_filter, List.mem_map, decide_eq_true_eq] at hx
        obtain ⟨⟨s, _, rfl⟩, h2⟩ := hx
        exact absurd h2.symm h

theorem AllStr.append {m : Mem} : ∀ {ps qs : List Nat} {ss ts : List (List Byte)}, AllStr m ps ss → AllStr m qs ts → AllStr m (ps ++ qs) (ss ++ ts)
  | [], _, [], _, _, h => h
  | [], _, _ :: _, _, h, _ => h.elim
  | _ :: _, _, [], _, h, _ => h.elim
  | _ :: _, _, _ :: _, _, h, g => ⟨h.1, AllStr.append h.2 g⟩

/-- C88: printsl and eprintsl do the same with a newline at the end. -/
theorem C88_printsl {K : WKernel} {m : Mem} {fd : Int} {nl : Nat} {ps : List Nat} {ss : List (List Byte)} (hK : Accepting K) (ha : AllStr m ps ss)
    (hnl : m.IsStr nl [10#8]) (hz : nl ≠ 0) (h0 : ∀ p ∈ ps, p ≠ 0) (hn : ps.length < 523999) (hl : ss.flatten.length < 2147483647) (w : Writes) :
    ∃ w', printsl K m w fd nl ps = .ok (w', (ss.flatten.length : Int) + 1) ∧
      ∀ f, delivered f w' = delivered f w ++ if f = fd then ss.flatten ++ [10#8] else [] := by
  have h := C88_prints (K := K) (m := m) (fd := fd) (ps := ps ++ [nl]) (ss := ss ++ [[10#8]]) hK (by simp) (AllStr.append ha ⟨hnl, trivial⟩)
    (fun p hp => by
      rcases List.mem_append.mp hp with h | h
      · exact h0 p h
      · rw [List.mem_singleton.mp h]; exact hz) (by simp; omega) (by rw [List.flatten_append, List.length_append]; simp only [List.flatten_cons, List.flatten_nil, List.append_nil, List.length_singleton]; omega) w
  unfold printsl
  simpa using h

/-- C88: print and eprint offer exactly the string to their descriptor and hand on the kernel's answer. -/
theorem C88_print {K : WKernel} {m : Mem} {w : Writes} {fd : Int} {p : Nat} {s : List Byte} (h : m.IsStr p s) (hp : p ≠ 0) (hl : s.length < 2147483648) :
    printStr K m w fd p = .ok (sysWrite K w fd s) := C68_fputs h hp hl

/-- C88 in full, for puts: the text, then a newline; the answer is negative if one of the two cannot be written. -/
def C88_puts_full : Prop := ∀ (nlFirst : Bool) (K : WKernel) (m : Mem) (w : Writes) (fd : Int) (p : Nat) (s : List Byte), m.IsStr p s → p ≠ 0 →
  s.length < 2147483647 → ErrnoKernel K →
    ∃ w' v, puts nlFirst K m w fd p = .ok (w', v) ∧ (Accepting K → delivered fd w' = delivered fd w ++ (s ++ [10#8])) ∧
      ((∀ w l, K w fd l < 0 ∨ l.length ≤ K w fd l) → 0 ≤ v → delivered fd w' = delivered fd w ++ (s ++ [10#8]))

/-- C88: evaluated from left to right, and with a kernel that takes everything, puts delivers the text and a newline, and answers their length. -/
theorem C88_puts_partial {K : WKernel} {m : Mem} {w : Writes} {fd : Int} {p : Nat} {s : List Byte} (hK : Accepting K) (h : m.IsStr p s) (hp : p ≠ 0)
    (hl : s.length < 2147483647) : ∃ w', puts false K m w fd p = .ok (w', (s.length : Int) + 1) ∧
      ∀ f, delivered f w' = delivered f w ++ if f = fd then s ++ [10#8] else [] := by
  have e1 := C88_print (K := K) (w := w) (fd := fd) h hp (by omega)
  rw [sysWrite_accepting hK] at e1
  refine ⟨w ++ [(fd, s)] ++ [(fd, [10#8])], ?_, fun f => ?_⟩
  · have e2 : ckInt ((s.length : Int) + ([10#8] : List Byte).length) = .ok ((s.length : Int) + 1) :=
        ckInt_ok (x := (s.length : Int) + 1) (by omega) (by omega)
    unfold puts printNl
    rw [if_neg (by decide), e1, Res.ok_bind]
    dsimp only
    rw [sysWrite_accepting hK]
    dsimp only
    rw [e2]
    exact Res.ok_bind _ _
  · rw [delivered_one, delivered_one]
    split <;> simp

/-- C88 fails for puts, twice: the newline may come first (for every text, with the other order of evaluation, which the language allows), and an error
on the text is hidden by the newline written. -/
theorem C88_puts_refuted : ¬ C88_puts_full ∧
    (∀ (K : WKernel) (m : Mem) (w : Writes) (fd : Int) (p : Nat) (s : List Byte), Accepting K → m.IsStr p s → p ≠ 0 → s.length < 2147483647 →
      ∃ w', puts true K m w fd p = .ok (w', (s.length : Int) + 1) ∧ delivered fd w' = delivered fd w ++ (10#8 :: s)) ∧
    (∀ (m : Mem) (w : Writes) (fd : Int) (p : Nat) (s : List Byte), m.IsStr p s → p ≠ 0 → 2 ≤ s.length → s.length < 2147483647 →
      ∃ w', puts false (fun _ _ l => if l.length = 1 then 1 else -1) m w fd p = .ok (w', 0) ∧ delivered fd w' = delivered fd w ++ [10#8]) := by
  have k1 : ∀ (K : WKernel) (m : Mem) (w : Writes) (fd : Int) (p : Nat) (s : List Byte), Accepting K → m.IsStr p s → p ≠ 0 → s.length < 2147483647 →
      ∃ w', puts true K m w fd p = .ok (w', (s.length : Int) + 1) ∧ delivered fd w' = delivered fd w ++ (10#8 :: s) := by
    intro K m w fd p s hK h hp hl
    have e1 := C88_print (K := K) (w := w ++ [(fd, [10#8])]) (fd := fd) h hp (by omega)
    rw [sysWrite_accepting hK] at e1
    refine ⟨w ++ [(fd, [10#8])] ++ [(fd, s)], ?_, ?_⟩
    · have e2 : ckInt ((s.length : Int) + ([10#8] : List Byte).length) = .ok ((s.length : Int) + 1) :=
        ckInt_ok (x := (s.length : Int) + 1) (by omega) (by omega)
      unfold puts printNl
      rw [if_pos rfl, sysWrite_accepting hK]
      dsimp only
      rw [e1, Res.ok_bind]
      dsimp only
      rw [e2]
      exact Res.ok_bind _ _
    · rw [delivered_one, delivered_one]
      simp
  refine ⟨fun hf => ?_, k1, ?_⟩
  · let m : Mem := Mem.object 1 [97#8, 0#8]
    have hm : m.IsStr 1 [97#8] := by unfold Mem.IsStr Mem.Holds; decide +kernel
    obtain ⟨w', v, e, h1, _⟩ := hf true (fun _ _ l => l.length) m [] 1 1 [97#8] hm (by decide) (by decide) (fun w fd l => by show -4095 ≤ (l.length : Int); omega)
    obtain ⟨w2, e2, h2⟩ := k1 (fun _ _ l => l.length) m [] 1 1 [97#8] (fun _ _ _ => rfl) hm (by decide) (by decide)
    rw [e] at e2
    cases e2
    rw [h1 (fun _ _ _ => rfl)] at h2
    revert h2
    decide
  · intro m w fd p s h hp h2 hl
    have e1 := C88_print (K := fun _ _ l => if l.length = 1 then 1 else -1) (w := w) (fd := fd) h hp (by omega)
    refine ⟨w ++ [(fd, [])] ++ [(fd, [10#8])], ?_, ?_⟩
    · simp only [puts, Bool.false_eq_true, if_false, e1, Res.ok_bind, printNl]
      have a1 : sysWrite (fun _ _ l => if l.length = 1 then 1 else -1) w fd s = (w ++ [(fd, [])], -1) := by
        simp only [sysWrite]
        rw [if_neg (by omega), Int.min_eq_left (by omega)]
        rfl
      rw [a1]
      rfl
    · rw [delivered_one, delivered_one]
      simp

/-- C88: putchar and fputc deliver one byte, the value converted to unsigned char, and answer it, for values of an unsigned char and a kernel that takes
the byte.  (Missing: other values and kernels, see below.) -/
theorem C88_fputc_partial {K : WKernel} {w : Writes} {fd : Int} {c : BitVec 32} (hK : Accepting K) (hc : c.toNat < 256) :
    fputc K w c fd = (w ++ [(fd, [BitVec.ofNat 8 c.toNat])], (c.toNat : Int)) := by
  unfold fputc
  rw [sysWrite_accepting hK, BitVec.toInt_eq_toNat_cond, if_pos (by omega)]
  rfl

/-- C88 fails for putchar and fputc: the argument is answered whatever the kernel does, and as it is, not converted. -/
theorem C88_fputc_refuted (K : WKernel) (w : Writes) (fd : Int) (c : BitVec 32) :
    (fputc K w c fd).2 = c.toInt ∧ (fputc (fun _ _ _ => -9) [] 65#32 1) = ([(1, [])], 65) ∧ (fputc (fun _ _ l => l.length) [] 300#32 1) = ([(1, [44#8])], 300) :=
  ⟨rfl, by decide, by decide⟩

/-- C88 fails for writes, ewrites, fwrites and, with a newline, for writesl, ewritesl, fwritesl: the NUL of the literal is written too, always. -/
theorem C88_writes_refuted {K : WKernel} {m : Mem} {w : Writes} {fd : Int} {p : Nat} {s : List Byte} (hK : Accepting K) :
    (m.IsStr p s → writes K m w fd p s.length = .ok (w ++ [(fd, s ++ [0#8])], (s.length : Int) + 1)) ∧
    (m.IsStr p (s ++ [10#8]) → writesl K m w fd p s.length = .ok (w ++ [(fd, s ++ [10#8, 0#8])], (s.length : Int) + 2)) := by
  have key : ∀ t : List Byte, m.IsStr p t → kwrite K m w fd p (t.length + 1) = .ok (w ++ [(fd, t ++ [0#8])], (t.length : Int) + 1) := by
    intro t ht
    have hh : m.Holds p (t ++ [0#8]) := by
      rw [holds_append]
      exact ⟨ht.1, by rw [holds_cons]; exact ⟨ht.2.1, fun i hi => by cases hi⟩⟩
    have := kwrite_eq (K := K) (w := w) (fd := fd) hh
    rw [sysWrite_accepting hK] at this
    simpa using this
  refine ⟨fun h => key s h, fun h => ?_⟩
  have := key _ h
  simp only [List.length_append, List.length_singleton, List.append_assoc] at this
  unfold writesl
  rw [this]
  simp
  omega

/-- `prints("ab", "c")` delivers "abc"; `writes("ab")` delivers "ab" and a NUL. -/
example : (∃ w', prints (fun _ _ l => l.length) (Mem.object 1 [97, 98, 0, 99, 0]) [] 1 [1, 4] = .ok (w', 3) ∧ delivered 1 w' = [97, 98, 99]) ∧
    writes (fun _ _ l => l.length) (Mem.object 1 [97, 98, 0, 99, 0]) [] 1 1 2 = .ok ([(1, [97, 98, 0])], 3) := by
  constructor
  · obtain ⟨w', e, h⟩ := C88_prints (K := fun _ _ l => l.length) (m := Mem.object 1 [97, 98, 0, 99, 0]) (fd := 1) (ps := [1, 4]) (ss := [[97, 98], [99]])
      (fun _ _ _ => rfl) (by simp) ⟨by unfold Mem.IsStr Mem.Holds; decide +kernel, by unfold Mem.IsStr Mem.Holds; decide +kernel, trivial⟩ (by decide) (by decide) (by decide) []
    exact ⟨w', e, by rw [h 1]; rfl⟩
  · exact (C88_writes_refuted (s := [97, 98]) (fun _ _ _ => rfl)).1 (by unfold Mem.IsStr Mem.Holds; decide +kernel)

/-- C88: `printsl("ab", "c")`, `puts("ab")` and `fputc('x')`. -/
example : (∃ w', printsl (fun _ _ l => l.length) (Mem.object 1 [97, 98, 0, 99, 0, 10, 0]) [] 1 6 [1, 4] = .ok (w', 4) ∧ delivered 1 w' = [97, 98, 99, 10]) ∧
    (∃ w', puts false (fun _ _ l => l.length) (Mem.object 1 [97, 98, 0]) [] 1 1 = .ok (w', 3) ∧ delivered 1 w' = [97, 98, 10]) ∧
    fputc (fun _ _ l => l.length) [] 120#32 1 = ([(1, [120#8])], 120) := by
  refine ⟨?_, ?_, C88_fputc_partial (fun _ _ _ => rfl) (by decide)⟩
  · obtain ⟨w', e, h⟩ := C88_printsl (K := fun _ _ l => l.length) (m := Mem.object 1 [97, 98, 0, 99, 0, 10, 0]) (fd := 1) (nl := 6) (ps := [1, 4])
      (ss := [[97, 98], [99]]) (fun _ _ _ => rfl)
      ⟨by unfold Mem.IsStr Mem.Holds; decide +kernel, by unfold Mem.IsStr Mem.Holds; decide +kernel, trivial⟩
      (by unfold Mem.IsStr Mem.Holds; decide +kernel) (by decide) (by decide) (by decide) (by decide) []
    exact ⟨w', e, by rw [h 1]; rfl⟩
  · obtain ⟨w', e, h⟩ := C88_puts_partial (K := fun _ _ l => l.length) (m := Mem.object 1 [97, 98, 0]) (w := []) (fd := 1) (p := 1) (s := [97, 98])
      (fun _ _ _ => rfl) (by unfold Mem.IsStr Mem.Holds; decide +kernel) (by decide) (by decide)
    exact ⟨w', e, by rw [h 1]; rfl⟩

end Minilib

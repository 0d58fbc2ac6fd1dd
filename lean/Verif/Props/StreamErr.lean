import Verif.Props.Streams
import Verif.Model.Getchar
/-
Properties C41 with read errors, and C42 for getchar.
-/

set_option autoImplicit false

namespace Minilib
open Mem Spec

/-- The kernel answered one of the reads of a character number `a` to `b - 1` with an error. -/
def _root_.Spec.Failed (K : RKernel) (a b : Nat) : Prop := ∃ c, a ≤ c ∧ c < b ∧ K c 1 < 0

theorem failed_mono {K : RKernel} {a b c : Nat} (h : Failed K b c) (hab : a ≤ b) : Failed K a c := by
  obtain ⟨x, h1, h2, h3⟩ := h
  exact ⟨x, by omega, h2, h3⟩

/-- `fgetc` with any kernel: the next byte, or after an error 0 and nothing is lost. -/
theorem fgetc_any (K : RKernel) (ung : Bool) (F : Stream) :
    low24 (fgetc K ung F).2.cell = low24 F.cell ∧ F.input.calls ≤ (fgetc K ung F).2.input.calls ∧
    ((BitVec.ofInt 8 (fgetc K ung F).1 = (avail ung F).headD 0#8 ∧ avail ung (fgetc K ung F).2 = (avail ung F).tail) ∨
     (BitVec.ofInt 8 (fgetc K ung F).1 = 0#8 ∧ avail ung (fgetc K ung F).2 = avail ung F ∧
      Failed K F.input.calls (fgetc K ung F).2.input.calls)) := by
  by_cases h : ung = true ∧ F.cell.sshiftRight 24 ≠ 0#32
  · have e : ∀ K', fgetc K' ung F = ((F.cell.sshiftRight 24).toInt, ⟨F.cell &&& ~~~ UNGETC_MASK, F.input⟩) :=
      fun K' => by unfold fgetc; rw [if_pos h]
    have hz : NoErr (fun _ _ => 0) := fun _ _ => Int.le_refl 0
    have h1 := fgetc_byte hz ung F
    have h2 := (fgetc_view hz ung F).2.2
    rw [e] at h1 h2
    rw [e]
    exact ⟨h2, Nat.le_refl _, Or.inl h1⟩
  · have hp : pushed ung F.cell = [] := by
      unfold pushed
      rw [if_neg]
      rintro ⟨a, b⟩
      exact h ⟨a, fun e => b ((sshift_zero _).1 e)⟩
    unfold fgetc
    rw [if_neg h]
    by_cases hk : K F.input.calls 1 < 0
    · have e : sysRead K F.input 1 = (K F.input.calls 1, [], ⟨F.input.data, F.input.calls + 1⟩) := by
        unfold sysRead; rw [if_pos hk]
      rw [e]
      exact ⟨rfl, Nat.le_succ _, Or.inr ⟨by simp, rfl, F.input.calls, Nat.le_refl _, Nat.lt_succ_self _, hk⟩⟩
    · have e : sysRead K F.input 1 = ((readLen K F.input 1 : Int), F.input.data.take (readLen K F.input 1),
          ⟨F.input.data.drop (readLen K F.input 1), F.input.calls + 1⟩) := by
        unfold sysRead; rw [if_neg hk]
      rw [e]
      cases hd : F.input.data with
      | nil => simp [avail, hp, hd]
      | cons b d =>
        have : readLen K F.input 1 = 1 := by
          simp only [readLen, hd, List.length_cons]
          omega
        simp [avail, hp, hd, this]

/-- What a call left: the line, or after an error a part of it; nothing is lost. -/
def _root_.Spec.LineOrPart (K : RKernel) (ung : Bool) (n : Nat) (F : Stream) (l : List Byte) (F' : Stream) : Prop :=
  (l = lineOf n (avail ung F) ∧ avail ung F' = afterLine n (avail ung F)) ∨
  (Failed K F.input.calls F'.input.calls ∧ l <+: lineOf n (avail ung F) ∧ avail ung F = l ++ avail ung F')

theorem fgetsLoop_any (K : RKernel) (ung : Bool) (n : Nat) : ∀ (m : Mem) (buf : Nat) (size : Int) (F : Stream),
    (size - 1).toNat = n → size ≠ INT_MIN → m.Mapped (buf + 1) ((lineOf n (avail ung F)).length + 1) →
    ∃ l F', fgetsLoop K ung m buf size F = .ok (m.write (buf + 1) (l ++ [0#8]), buf + 1 + l.length, F') ∧
      LineOrPart K ung n F l F' ∧ low24 F'.cell = low24 F.cell ∧ F.input.calls ≤ F'.input.calls := by
  induction n with
  | zero =>
    intro m buf size F hn h0 hm
    refine ⟨[], F, ?_, Or.inl ⟨rfl, rfl⟩, rfl, Nat.le_refl _⟩
    rw [fgetsLoop, decInt_ok h0]
    simp only [Res.ok_bind]
    rw [if_neg (by omega)]
    obtain ⟨x, hx⟩ := (mapped_succ.1 hm).1
    rw [store_some hx]
    simp [write_singleton]
  | succ n ih =>
    intro m buf size F hn h0 hm
    obtain ⟨g3, gc, hg⟩ := fgetc_any K ung F
    obtain ⟨x, hx⟩ := (mapped_succ.1 hm).1
    rw [fgetsLoop, decInt_ok h0]
    simp only [Res.ok_bind]
    rw [if_pos (by omega)]
    rcases hg with ⟨g1, g2⟩ | ⟨g1, g2, g4⟩
    · rw [g1]
      cases hd : avail ung F with
      | nil =>
        rw [hd] at g2
        refine ⟨[], (fgetc K ung F).2, ?_, Or.inl ⟨by simp [lineOf, hd], by simpa [afterLine, hd] using g2⟩, g3, gc⟩
        rw [List.headD_nil]
        rw [store_some hx]
        simp [write_singleton]
      | cons b d =>
        rw [hd] at g2 hm
        simp only [List.tail_cons] at g2
        rw [List.headD_cons]
        rw [store_some hx]
        simp only [Res.ok_bind]
        by_cases hb0 : b = 0#8
        · refine ⟨[], (fgetc K ung F).2, ?_, Or.inl ⟨by simp [lineOf, hb0, hd], by simp [afterLine, hb0, hd, g2]⟩, g3, gc⟩
          rw [if_pos hb0]
          simp [hb0, write_singleton]
        · rw [if_neg hb0]
          by_cases hb1 : b = 10#8
          · rw [if_pos hb1]
            rw [lineOf, if_neg hb0, if_pos hb1] at hm
            obtain ⟨y, hy⟩ := ((hm.upd (buf + 1) b) 1 (by simp))
            refine ⟨[b], (fgetc K ung F).2, ?_, Or.inl ⟨by simp [lineOf, hb1, hd], by simp [afterLine, hb1, hd, g2]⟩, g3, gc⟩
            rw [fgetsLoop, decInt_ok (by decide)]
            simp only [Res.ok_bind]
            rw [if_neg (by omega), store_some hy]
            simp [write_cons, write_nil]
          · rw [if_neg hb1]
            rw [lineOf, if_neg hb0, if_neg hb1] at hm
            simp only [List.length_cons] at hm
            obtain ⟨l, F', r1, r2, r3, r4⟩ := ih (m.upd (buf + 1) b) (buf + 1) (size - 1) (fgetc K ung F).2 (by omega)
              (by omega) (by rw [g2]; exact ((mapped_succ.1 hm).2).upd _ _)
            refine ⟨b :: l, F', ?_, ?_, by rw [r3, g3], Nat.le_trans gc r4⟩
            · rw [r1]
              simp only [List.cons_append, write_cons, List.length_cons]
              congr 3
              omega
            · rcases r2 with ⟨r5, r6⟩ | ⟨r5, r6, r7⟩
              · rw [g2] at r5 r6
                exact Or.inl ⟨by rw [hd, lineOf, if_neg hb0, if_neg hb1, r5], by rw [hd, r6, afterLine, if_neg hb0, if_neg hb1]⟩
              · rw [g2] at r6 r7
                refine Or.inr ⟨failed_mono r5 gc, ?_, by rw [hd, r7, List.cons_append]⟩
                rw [hd, lineOf, if_neg hb0, if_neg hb1]
                exact List.cons_prefix_cons.2 ⟨rfl, r6⟩
    · rw [g1]
      refine ⟨[], (fgetc K ung F).2, ?_, Or.inr ⟨g4, List.nil_prefix, by simp [g2]⟩, g3, gc⟩
      rw [store_some hx]
      simp [write_singleton]

theorem fgets_any (K : RKernel) (ung : Bool) {m : Mem} {buf n : Nat} {F : Stream} (hn : n < 2147483647)
    (hm : m.Mapped buf ((lineOf (n + 1) (avail ung F)).length + 1)) :
    ∃ l F', fgets K ung m buf ((n : Int) + 1) F = .ok (m.write buf (l ++ [0#8]), (if l = [] then 0 else buf), F') ∧
      fgetsn K ung m buf ((n : Int) + 1) F = .ok (m.write buf (l ++ [0#8]), (l.length : Int), F') ∧
      LineOrPart K ung (n + 1) F l F' ∧ low24 F'.cell = low24 F.cell ∧ F.input.calls ≤ F'.input.calls := by
  obtain ⟨g3, gc, hg⟩ := fgetc_any K ung F
  obtain ⟨x, hx⟩ := (mapped_succ.1 hm).1
  unfold fgets fgetsn
  rcases hg with ⟨g1, g2⟩ | ⟨g1, g2, g4⟩
  · rw [g1]
    cases hd : avail ung F with
    | nil =>
      rw [hd] at g2
      rw [List.headD_nil]
      dsimp only
      rw [store_some hx]
      exact ⟨[], (fgetc K ung F).2, by simp [write_singleton], by simp [write_singleton],
        Or.inl ⟨by simp [lineOf, hd], by simpa [afterLine, hd] using g2⟩, g3, gc⟩
    | cons b d =>
      rw [hd] at g2 hm
      simp only [List.tail_cons] at g2
      rw [List.headD_cons]
      dsimp only
      rw [store_some hx]
      simp only [Res.ok_bind]
      by_cases hb0 : b = 0#8
      · rw [if_pos hb0, if_pos hb0]
        exact ⟨[], (fgetc K ung F).2, by simp [hb0, write_singleton], by simp [hb0, write_singleton],
          Or.inl ⟨by simp [lineOf, hb0, hd], by simp [afterLine, hb0, hd, g2]⟩, g3, gc⟩
      · rw [if_neg hb0, if_neg hb0]
        by_cases hb1 : b = 10#8
        · rw [if_pos hb1]
          rw [lineOf, if_neg hb0, if_pos hb1] at hm
          obtain ⟨l, F', r1, r2, r3, r4⟩ := fgetsLoop_any K ung 0 (m.upd buf b) buf 0 (fgetc K ung F).2 rfl (by decide)
            (by exact ((mapped_succ.1 hm).2).upd _ _)
          have hl : l = [] ∧ avail ung F' = d := by
            rcases r2 with ⟨r5, r6⟩ | ⟨_, r6, r7⟩
            · exact ⟨r5, by rw [r6, g2]; rfl⟩
            · have : l = [] := by simpa [lineOf] using r6
              exact ⟨this, by rw [g2, this] at r7; exact r7.symm⟩
          rw [hl.1] at r1
          refine ⟨[b], F', ?_, ?_, Or.inl ⟨by simp [lineOf, hb1, hd], by rw [hl.2]; simp [afterLine, hb1, hd]⟩,
            by rw [r3, g3], Nat.le_trans gc r4⟩
          · rw [r1]; simp [write_cons, write_nil]
          · rw [r1]; simp [write_cons, write_nil]
        · rw [if_neg hb1]
          rw [lineOf, if_neg hb0, if_neg hb1] at hm
          simp only [List.length_cons] at hm
          obtain ⟨l, F', r1, r2, r3, r4⟩ := fgetsLoop_any K ung n (m.upd buf b) buf ((n : Int) + 1) (fgetc K ung F).2 (by omega)
            (by omega) (by rw [g2]; exact ((mapped_succ.1 hm).2).upd _ _)
          refine ⟨b :: l, F', ?_, ?_, ?_, by rw [r3, g3], Nat.le_trans gc r4⟩
          · rw [r1]; simp [write_cons]
          · rw [r1]
            simp only [Res.ok_bind, Res.pure_eq, List.cons_append, write_cons, List.length_cons]
            congr 3
            omega
          · rcases r2 with ⟨r5, r6⟩ | ⟨r5, r6, r7⟩
            · rw [g2] at r5 r6
              exact Or.inl ⟨by rw [hd, lineOf, if_neg hb0, if_neg hb1, r5], by rw [hd, r6, afterLine, if_neg hb0, if_neg hb1]⟩
            · rw [g2] at r6 r7
              refine Or.inr ⟨failed_mono r5 gc, ?_, by rw [hd, r7, List.cons_append]⟩
              rw [hd, lineOf, if_neg hb0, if_neg hb1]
              exact List.cons_prefix_cons.2 ⟨rfl, r6⟩
  · rw [g1]
    dsimp only
    rw [store_some hx]
    exact ⟨[], (fgetc K ung F).2, by simp [write_singleton], by simp [write_singleton],
      Or.inr ⟨g4, List.nil_prefix, by simp [g2]⟩, g3, gc⟩

/-- C41 with read errors (partial: with one byte more behind the buffer; `C41_refuted`): whatever the kernel answers,
`fgets` and `fgetsn` deliver the line, or, when a read failed during the call, a part of it; what they did not deliver
is still in the stream. -/
theorem C41_errors_partial (K : RKernel) (ung : Bool) {m : Mem} {buf n : Nat} {F : Stream} (hn : n < 2147483647)
    (hm : m.Mapped buf (n + 2)) :
    ∃ l F', fgets K ung m buf ((n : Int) + 1) F = .ok (m.write buf (l ++ [0#8]), (if l = [] then 0 else buf), F') ∧
      fgetsn K ung m buf ((n : Int) + 1) F = .ok (m.write buf (l ++ [0#8]), (l.length : Int), F') ∧
      LineOrPart K ung (n + 1) F l F' ∧ low24 F'.cell = low24 F.cell := by
  obtain ⟨l, F', h1, h2, h3, h4, _⟩ := fgets_any K ung (F := F) hn
    (hm.mono (by have := lineOf_le (n + 1) (avail ung F); omega))
  exact ⟨l, F', h1, h2, h3, h4⟩

theorem fgets_run_prefix (K : RKernel) (ung : Bool) {buf n : Nat} (hb : buf ≠ 0) (hn : n < 2147483647) {m : Mem} {F : Stream}
    {ls : List (List Byte)} (h : FgetsRun K ung buf ((n : Int) + 1) m F ls) (hm : m.Mapped buf (n + 2))
    (h0 : 0#8 ∉ avail ung F) : ls.flatten <+: avail ung F := by
  induction h with
  | stop _ => exact List.nil_prefix
  | @step m m' F F' l ls h1 _ hs _ ih =>
    obtain ⟨l', F2, h2, _, h3, _⟩ := C41_errors_partial K ung (F := F) hn hm
    have e := h1.symm.trans h2
    simp only [Res.ok.injEq, Prod.mk.injEq] at e
    obtain ⟨rfl, e2, rfl⟩ := e
    have hav : avail ung F = l' ++ avail ung F' := by
      rcases h3 with ⟨a, b⟩ | ⟨_, _, c⟩
      · rw [a, b, lineOf_split _ _ h0]
      · exact c
    have hl' : ∀ b ∈ l', b ≠ 0#8 := fun b hb e => h0 (by rw [hav, ← e]; simp [hb])
    have hstr : (m.write buf (l' ++ [0#8])).IsStr buf l' := isStr_iff.2 ⟨write_holds _ _ _, hl'⟩
    rw [IsStr.unique hs hstr, List.flatten_cons, hav]
    exact List.prefix_append_right_inj _ |>.2 (ih (hm.write _ _) (fun hc => h0 (by rw [hav]; simp [hc])))

/-- C41 with read errors (partial: as above, and data without NUL bytes): the texts a loop of `fgets` calls has seen at
its end are the front of the stream, without a gap or a byte twice, whatever the kernel answered. -/
theorem C41_loop_errors_partial (K : RKernel) (ung : Bool) {buf n : Nat} (hb : buf ≠ 0) (hn : n < 2147483647) {m : Mem} {F : Stream}
    {ls : List (List Byte)} (h : FgetsRun K ung buf ((n : Int) + 1) m F ls) (hm : m.Mapped buf (n + 2))
    (h0 : 0#8 ∉ avail ung F) : ls.flatten <+: avail ung F :=
  fgets_run_prefix K ung hb hn h hm h0

/-- A kernel whose second answer is an error. -/
def errSecond : RKernel := fun c _ => if c = 1 then -5 else 1

/-- `fgets(buf, 4, f)` on "ab\n" with an error after the first byte: "a" is delivered, "b\n" is left. -/
theorem fgets_errSecond : fgets errSecond true (object 16 [7#8, 7#8, 7#8, 7#8, 7#8]) 16 4 ⟨3#32, ⟨[97#8, 98#8, 10#8], 0⟩⟩
      = .ok ((object 16 [7#8, 7#8, 7#8, 7#8, 7#8]).write 16 [97#8, 0#8], 16, ⟨3#32, ⟨[98#8, 10#8], 2⟩⟩) := by
  unfold fgets
  have hc : fgetc errSecond true ⟨3#32, ⟨[97#8, 98#8, 10#8], 0⟩⟩ = (97, ⟨3#32, ⟨[98#8, 10#8], 1⟩⟩) := by rfl
  have hc2 : fgetc errSecond true ⟨3#32, ⟨[98#8, 10#8], 1⟩⟩ = (0, ⟨3#32, ⟨[98#8, 10#8], 2⟩⟩) := by rfl
  rw [hc]
  dsimp only
  rw [store_some (c := 7#8) (by decide)]
  simp only [Res.ok_bind]
  rw [if_neg (by decide), if_neg (by decide), fgetsLoop, decInt_ok (by decide)]
  simp only [Res.ok_bind]
  rw [if_pos (by decide), hc2]
  dsimp only
  rw [store_some (c := 7#8) (by decide)]
  simp only [Res.ok_bind]
  rw [if_pos (by decide)]
  simp [write_cons, write_nil]

example : ∃ F', fgets errSecond true (object 16 [7#8, 7#8, 7#8, 7#8, 7#8]) 16 4 ⟨3#32, ⟨[97#8, 98#8, 10#8], 0⟩⟩
      = .ok ((object 16 [7#8, 7#8, 7#8, 7#8, 7#8]).write 16 [97#8, 0#8], 16, F') ∧ avail true F' = [98#8, 10#8] :=
  ⟨_, fgets_errSecond, by decide⟩

/-- Full statement: `fgets` answers NULL, or `ferror` says so, when a read failed. -/
def C41_report_full : Prop :=
  ∀ (K : RKernel) (ung : Bool) (m m' : Mem) (buf n r : Nat) (F F' : Stream), n < 2147483647 → m.Mapped buf (n + 2) →
    fgets K ung m buf ((n : Int) + 1) F = .ok (m', r, F') → Failed K F.input.calls F'.input.calls →
      r = 0 ∨ ferror F'.cell = true

/-- An error within a line is not reported. -/
theorem C41_report_refuted : ¬ C41_report_full := by
  intro h
  rcases h errSecond true _ _ 16 3 16 _ _ (by decide)
    (by intro i hi; exact Option.isSome_iff_exists.1
          ((by decide : ∀ i < 5, ((object 16 [7#8, 7#8, 7#8, 7#8, 7#8]) (16 + i)).isSome) i hi)) fgets_errSecond
    ⟨1, by decide, by decide, by decide⟩ with h | h
  · exact absurd h (by decide)
  · exact absurd h (by decide)

theorem fgetsp_any (K : RKernel) (ung : Bool) (n : Nat) : ∀ (m : Mem) (buf : Nat) (size : Int) (F : Stream),
    (size - 1).toNat = n → size ≠ INT_MIN → m.Mapped buf (n + 1) →
    ∃ l F', fgetsp K ung m buf size F = .ok (m.write buf (l.takeWhile (· ≠ 10#8) ++ [0#8]),
        buf + (l.takeWhile (· ≠ 10#8)).length, F') ∧
      LineOrPart K ung n F l F' ∧ low24 F'.cell = low24 F.cell ∧ F.input.calls ≤ F'.input.calls := by
  induction n with
  | zero =>
    intro m buf size F hn h0 hm
    refine ⟨[], F, ?_, Or.inl ⟨rfl, rfl⟩, rfl, Nat.le_refl _⟩
    rw [fgetsp, decInt_ok h0]
    simp only [Res.ok_bind]
    rw [if_neg (by omega)]
    obtain ⟨x, hx⟩ := (mapped_succ.1 hm).1
    rw [store_some hx]
    simp [write_singleton]
  | succ n ih =>
    intro m buf size F hn h0 hm
    obtain ⟨g3, gc, hg⟩ := fgetc_any K ung F
    obtain ⟨x, hx⟩ := (mapped_succ.1 hm).1
    rw [fgetsp, decInt_ok h0]
    simp only [Res.ok_bind]
    rw [if_pos (by omega)]
    rcases hg with ⟨g1, g2⟩ | ⟨g1, g2, g4⟩
    · rw [g1]
      cases hd : avail ung F with
      | nil =>
        rw [hd] at g2
        refine ⟨[], (fgetc K ung F).2, ?_, Or.inl ⟨by simp [lineOf, hd], by simpa [afterLine, hd] using g2⟩, g3, gc⟩
        rw [List.headD_nil]
        rw [store_some hx]
        simp [write_singleton]
      | cons b d =>
        rw [hd] at g2
        simp only [List.tail_cons] at g2
        rw [List.headD_cons]
        rw [store_some hx]
        simp only [Res.ok_bind]
        by_cases hb1 : b = 10#8
        · subst hb1
          rw [if_pos rfl, store_some (upd_same _ _ _)]
          refine ⟨[10#8], (fgetc K ung F).2, ?_, Or.inl ⟨by simp [lineOf, hd], by simp [afterLine, hd, g2]⟩, g3, gc⟩
          simp only [Res.ok_bind, Res.pure_eq]
          have : (m.upd buf 10#8).upd buf 0#8 = m.upd buf 0#8 := by
            funext a; simp only [upd]; split <;> rfl
          rw [this]
          simp [write_singleton]
        · rw [if_neg hb1]
          by_cases hb0 : b = 0#8
          · refine ⟨[], (fgetc K ung F).2, ?_, Or.inl ⟨by simp [lineOf, hb0, hd], by simp [afterLine, hb0, hd, g2]⟩, g3, gc⟩
            rw [if_pos hb0]
            simp [hb0, write_singleton]
          · rw [if_neg hb0]
            obtain ⟨l, F', r1, r2, r3, r4⟩ := ih (m.upd buf b) (buf + 1) (size - 1) (fgetc K ung F).2 (by omega) (by omega)
              (((mapped_succ.1 hm).2).upd _ _)
            refine ⟨b :: l, F', ?_, ?_, by rw [r3, g3], Nat.le_trans gc r4⟩
            · rw [r1]
              have hb1' : (decide (b ≠ 10#8)) = true := by simpa using hb1
              rw [List.takeWhile_cons, if_pos hb1']
              simp only [List.cons_append, write_cons, List.length_cons]
              congr 3
              exact (Nat.add_assoc _ _ _).trans (congrArg (buf + ·) (Nat.add_comm _ _))
            · rcases r2 with ⟨r5, r6⟩ | ⟨r5, r6, r7⟩
              · rw [g2] at r5 r6
                exact Or.inl ⟨by rw [hd, lineOf, if_neg hb0, if_neg hb1, r5], by rw [hd, r6, afterLine, if_neg hb0, if_neg hb1]⟩
              · rw [g2] at r6 r7
                refine Or.inr ⟨failed_mono r5 gc, ?_, by rw [hd, r7, List.cons_append]⟩
                rw [hd, lineOf, if_neg hb0, if_neg hb1]
                exact List.cons_prefix_cons.2 ⟨rfl, r6⟩
    · rw [g1]
      refine ⟨[], (fgetc K ung F).2, ?_, Or.inr ⟨g4, List.nil_prefix, by simp [g2]⟩, g3, gc⟩
      rw [store_some hx]
      simp [write_singleton]

/-- C41 for `fgetsp` with any answers of the kernel: at most `size-1` bytes of the line without its newline, and a NUL,
inside of the buffer; after an error a part of the line, and the rest is still in the stream. -/
theorem C41_fgetsp_errors (K : RKernel) (ung : Bool) {m : Mem} {buf n : Nat} {F : Stream} (hn : n < 2147483647)
    (hm : m.Mapped buf (n + 1)) :
    ∃ l F', fgetsp K ung m buf ((n : Int) + 1) F = .ok (m.write buf (l.takeWhile (· ≠ 10#8) ++ [0#8]),
        buf + (l.takeWhile (· ≠ 10#8)).length, F') ∧ l.length ≤ n ∧
      LineOrPart K ung n F l F' ∧ low24 F'.cell = low24 F.cell := by
  obtain ⟨l, F', h1, h2, h3, _⟩ := fgetsp_any K ung n m buf ((n : Int) + 1) F (by omega) (by omega) hm
  refine ⟨l, F', h1, ?_, h2, h3⟩
  have := lineOf_le n (avail ung F)
  rcases h2 with ⟨a, _⟩ | ⟨_, a, _⟩
  · rw [a]; exact this
  · exact Nat.le_trans a.length_le this

/-! ### C42: getchar -/

/-- Full statement: `getchar` takes the next byte of the standard input, or answers 0 at its end. -/
def C42_getchar_full : Prop := ∀ (K : RKernel) (ung : Bool) (s : Input), NoErr K →
  ∃ s', getchar K ung s = .ok (((s.data.headD 0#8).toNat : Int), s') ∧ s'.data = s.data.tail

/-- The full statement, when the program is compiled without `mini_ungetc`. -/
theorem C42_getchar_partial (K : RKernel) (s : Input) (hK : NoErr K) :
    ∃ s', getchar K false s = .ok (((s.data.headD 0#8).toNat : Int), s') ∧ s'.data = s.data.tail := by
  obtain ⟨h1, h2⟩ := sysRead_one hK s
  unfold getchar
  rw [if_neg (by decide)]
  cases hd : s.data with
  | nil => obtain ⟨a, b⟩ := h1 hd; rw [a]; exact ⟨_, rfl, b⟩
  | cons x d => obtain ⟨a, b⟩ := h2 x d hd; rw [a]; exact ⟨_, rfl, b⟩

example : getchar (fun _ _ => 1) false ⟨[97#8, 98#8], 0⟩ = .ok (97, ⟨[98#8], 1⟩) := rfl

/-- With `mini_ungetc` every call of `getchar` reads through a NULL pointer. -/
theorem C42_getchar_refuted : ¬ C42_getchar_full := by
  intro h
  obtain ⟨s', h1, _⟩ := h (fun _ _ => 1) true ⟨[97#8], 0⟩ (fun _ _ => by show (0 : Int) ≤ 1; decide)
  cases h1

/-- C41: "ab" and a newline, from a kernel whose second read fails. -/
example : ∃ l F', fgets errSecond true (object 16 [7#8, 7#8, 7#8, 7#8, 7#8]) 16 4 ⟨3#32, ⟨[97#8, 98#8, 10#8], 0⟩⟩ =
      .ok ((object 16 [7#8, 7#8, 7#8, 7#8, 7#8]).write 16 (l ++ [0#8]), (if l = [] then 0 else 16), F') ∧
    LineOrPart errSecond true 4 ⟨3#32, ⟨[97#8, 98#8, 10#8], 0⟩⟩ l F' := by
  obtain ⟨l, F', h1, -, h2, -⟩ := C41_errors_partial errSecond true (m := object 16 [7#8, 7#8, 7#8, 7#8, 7#8]) (buf := 16) (n := 3)
    (F := ⟨3#32, ⟨[97#8, 98#8, 10#8], 0⟩⟩) (by decide) (holds_object 16 [7#8, 7#8, 7#8, 7#8, 7#8]).mapped
  exact ⟨l, F', h1, h2⟩

end Minilib

import Verif.Lemmas.Streams
import Verif.Props.Output
/-
Properties C41, C42, C44, C69, C70, C71: reading and writing streams.
-/

set_option autoImplicit false

namespace Minilib
open Mem Spec

/-! ### C41: fgets, fgetsn, fgetsp -/

theorem fgetsLoop_eq {K : RKernel} (hK : NoErr K) (ung : Bool) (n : Nat) : ∀ (m : Mem) (buf : Nat) (size : Int) (F : Stream),
    (size - 1).toNat = n → size ≠ INT_MIN → m.Mapped (buf + 1) ((lineOf n (avail ung F)).length + 1) →
    ∃ F', fgetsLoop K ung m buf size F
        = .ok (m.write (buf + 1) (lineOf n (avail ung F) ++ [0#8]), buf + 1 + (lineOf n (avail ung F)).length, F') ∧
      avail ung F' = afterLine n (avail ung F) ∧ low24 F'.cell = low24 F.cell := by
  induction n with
  | zero =>
    intro m buf size F hn h0 hm
    refine ⟨F, ?_, rfl, rfl⟩
    rw [fgetsLoop, decInt_ok h0]
    simp only [Res.ok_bind]
    rw [if_neg (by omega)]
    obtain ⟨x, hx⟩ := (mapped_succ.1 hm).1
    rw [store_some hx]
    simp [lineOf, write_singleton]
  | succ n ih =>
    intro m buf size F hn h0 hm
    obtain ⟨g1, g2⟩ := fgetc_byte hK ung F
    have g3 := (fgetc_view hK ung F).2.2
    obtain ⟨x, hx⟩ := (mapped_succ.1 hm).1
    rw [fgetsLoop, decInt_ok h0]
    simp only [Res.ok_bind]
    rw [if_pos (by omega), g1]
    cases hd : avail ung F with
    | nil =>
      rw [hd] at g2
      refine ⟨(fgetc K ung F).2, ?_, by simpa [afterLine] using g2, g3⟩
      rw [List.headD_nil]
      rw [store_some hx]
      simp [lineOf, write_singleton]
    | cons b d =>
      rw [hd] at g2 hm
      simp only [List.tail_cons] at g2
      rw [List.headD_cons]
      rw [store_some hx]
      simp only [Res.ok_bind]
      by_cases hb0 : b = 0#8
      · refine ⟨(fgetc K ung F).2, ?_, by simp [afterLine, hb0, g2], g3⟩
        rw [if_pos hb0]
        simp [lineOf, hb0, write_singleton]
      · rw [if_neg hb0]
        by_cases hb1 : b = 10#8
        · rw [if_pos hb1]
          rw [lineOf, if_neg hb0, if_pos hb1] at hm ⊢
          obtain ⟨y, hy⟩ := ((hm.upd (buf + 1) b) 1 (by simp))
          refine ⟨(fgetc K ung F).2, ?_, by simp [afterLine, hb1, g2], g3⟩
          rw [fgetsLoop, decInt_ok (by decide)]
          simp only [Res.ok_bind]
          rw [if_neg (by omega), store_some hy]
          simp [write_cons, write_nil]
        · rw [if_neg hb1]
          rw [lineOf, if_neg hb0, if_neg hb1] at hm ⊢
          simp only [List.length_cons] at hm
          obtain ⟨F', r1, r2, r3⟩ := ih (m.upd (buf + 1) b) (buf + 1) (size - 1) (fgetc K ung F).2 (by omega) (by omega)
            (by rw [g2]; exact ((mapped_succ.1 hm).2).upd _ _)
          refine ⟨F', ?_, ?_, by rw [r3, g3]⟩
          · rw [r1, g2]
            simp only [List.cons_append, write_cons, List.length_cons]
            congr 3
            omega
          · rw [r2, g2, afterLine, if_neg hb0, if_neg hb1]

/-- `fgets`, exactly: the line (at most `size` bytes) and a NUL. -/
theorem fgets_exact {K : RKernel} (hK : NoErr K) (ung : Bool) {m : Mem} {buf n : Nat} {F : Stream} (hn : n < 2147483647)
    (hm : m.Mapped buf ((lineOf (n + 1) (avail ung F)).length + 1)) :
    ∃ F', fgets K ung m buf ((n : Int) + 1) F = .ok (m.write buf (lineOf (n + 1) (avail ung F) ++ [0#8]),
        (if lineOf (n + 1) (avail ung F) = [] then 0 else buf), F') ∧
      fgetsn K ung m buf ((n : Int) + 1) F = .ok (m.write buf (lineOf (n + 1) (avail ung F) ++ [0#8]),
        ((lineOf (n + 1) (avail ung F)).length : Int), F') ∧
      avail ung F' = afterLine (n + 1) (avail ung F) ∧ low24 F'.cell = low24 F.cell := by
  obtain ⟨g1, g2⟩ := fgetc_byte hK ung F
  have g3 := (fgetc_view hK ung F).2.2
  obtain ⟨x, hx⟩ := (mapped_succ.1 hm).1
  unfold fgets fgetsn
  rw [g1]
  cases hd : avail ung F with
  | nil =>
    rw [hd] at g2
    rw [List.headD_nil]
    dsimp only
    rw [store_some hx]
    exact ⟨(fgetc K ung F).2, by simp [lineOf, write_singleton], by simp [lineOf, write_singleton],
      by simpa [afterLine] using g2, g3⟩
  | cons b d =>
    rw [hd] at g2 hm
    simp only [List.tail_cons] at g2
    rw [List.headD_cons]
    dsimp only
    rw [store_some hx]
    simp only [Res.ok_bind]
    by_cases hb0 : b = 0#8
    · rw [if_pos hb0, if_pos hb0]
      exact ⟨(fgetc K ung F).2, by simp [lineOf, hb0, write_singleton], by simp [lineOf, hb0, write_singleton],
        by simp [afterLine, hb0, g2], g3⟩
    · rw [if_neg hb0, if_neg hb0]
      by_cases hb1 : b = 10#8
      · rw [if_pos hb1]
        rw [lineOf, if_neg hb0, if_pos hb1] at hm ⊢
        obtain ⟨F', r1, r2, r3⟩ := fgetsLoop_eq hK ung 0 (m.upd buf b) buf 0 (fgetc K ung F).2 rfl (by decide)
          (by exact ((mapped_succ.1 hm).2).upd _ _)
        refine ⟨F', ?_, ?_, by rw [r2, g2]; simp [afterLine, hb1], by rw [r3, g3]⟩
        · rw [r1]; simp [lineOf, write_cons, write_nil]
        · rw [r1]; simp [lineOf, write_cons, write_nil]
      · rw [if_neg hb1]
        rw [lineOf, if_neg hb0, if_neg hb1] at hm ⊢
        simp only [List.length_cons] at hm
        obtain ⟨F', r1, r2, r3⟩ := fgetsLoop_eq hK ung n (m.upd buf b) buf ((n : Int) + 1) (fgetc K ung F).2 (by omega) (by omega)
          (by rw [g2]; exact ((mapped_succ.1 hm).2).upd _ _)
        rw [g2] at r1 r2
        refine ⟨F', ?_, ?_, by rw [r2, afterLine, if_neg hb0, if_neg hb1], by rw [r3, g3]⟩
        · rw [r1]; simp [write_cons]
        · rw [r1]
          simp only [Res.ok_bind, Res.pure_eq, List.cons_append, write_cons, List.length_cons]
          congr 3
          omega

theorem lineOf_le (n : Nat) : ∀ d, (lineOf n d).length ≤ n := by
  induction n with
  | zero => intro d; simp [lineOf]
  | succ n ih =>
    intro d
    cases d with
    | nil => simp [lineOf]
    | cons b d =>
      simp only [lineOf]
      split
      · simp
      · split
        · simp
        · have := ih d; simp; omega

theorem lineOf_split (n : Nat) : ∀ d, 0#8 ∉ d → lineOf n d ++ afterLine n d = d := by
  induction n with
  | zero => intro d _; simp [lineOf, afterLine]
  | succ n ih =>
    intro d hd
    cases d with
    | nil => simp [lineOf, afterLine]
    | cons b d =>
      simp only [List.mem_cons, not_or] at hd
      have hb : b ≠ 0#8 := fun h => hd.1 h.symm
      simp only [lineOf, afterLine, if_neg hb]
      split
      · simp
      · simp [ih d hd.2]

theorem lineOf_nil (n : Nat) (d : List Byte) (h : 0#8 ∉ d) : lineOf (n + 1) d = [] ↔ d = [] := by
  cases d with
  | nil => simp [lineOf]
  | cons b d =>
    simp only [List.mem_cons, not_or] at h
    have hb : b ≠ 0#8 := fun e => h.1 e.symm
    simp only [lineOf, if_neg hb]
    split <;> simp

theorem lineOf_ne_zero (n : Nat) : ∀ d, ∀ b ∈ lineOf n d, b ≠ 0#8 := by
  induction n with
  | zero => intro d b hb; simp [lineOf] at hb
  | succ n ih =>
    intro d b hb
    cases d with
    | nil => simp [lineOf] at hb
    | cons x d =>
      simp only [lineOf] at hb
      split at hb
      · simp at hb
      · split at hb
        · simp only [List.mem_singleton] at hb; subst hb; assumption
        · rcases List.mem_cons.1 hb with rfl | hb
          · assumption
          · exact ih d b hb

/-- C41 for `fgets`: at most `size-1` bytes and a NUL, inside of the buffer. -/
def C41_full : Prop :=
  ∀ (K : RKernel) (ung : Bool) (m : Mem) (buf n : Nat) (F : Stream), NoErr K → n < 2147483647 → m.Mapped buf (n + 1) →
    ∃ l r F', fgets K ung m buf ((n : Int) + 1) F = .ok (m.write buf (l ++ [0#8]), r, F') ∧ l.length ≤ n ∧ l <+: avail ung F

/-- C41 (partial: the line has to be shorter than `size`): the line up to and including its newline and a NUL are
written, nothing else; the address is returned, or NULL if nothing was read; the rest stays in the stream (a NUL byte of
the stream ends the line and is lost). `fgetsn` does the same and returns the length. -/
theorem C41_fgets_partial {K : RKernel} (hK : NoErr K) (ung : Bool) {m : Mem} {buf n : Nat} {F : Stream} (hn : n < 2147483647)
    (hm : m.Mapped buf (n + 1)) (hl : (lineOf (n + 1) (avail ung F)).length ≤ n) :
    ∃ F', fgets K ung m buf ((n : Int) + 1) F = .ok (m.write buf (lineOf (n + 1) (avail ung F) ++ [0#8]),
        (if lineOf (n + 1) (avail ung F) = [] then 0 else buf), F') ∧
      fgetsn K ung m buf ((n : Int) + 1) F = .ok (m.write buf (lineOf (n + 1) (avail ung F) ++ [0#8]),
        ((lineOf (n + 1) (avail ung F)).length : Int), F') ∧
      avail ung F' = afterLine (n + 1) (avail ung F) ∧ low24 F'.cell = low24 F.cell :=
  fgets_exact hK ung hn (hm.mono (by omega))

/-- C41 (partial: with one byte more behind the buffer): exact for every line; a line of `size` or more bytes is cut
after `size` bytes, and the NUL goes to `buf[size]`. -/
theorem C41_fgets_long_partial {K : RKernel} (hK : NoErr K) (ung : Bool) {m : Mem} {buf n : Nat} {F : Stream} (hn : n < 2147483647)
    (hm : m.Mapped buf (n + 2)) :
    ∃ F', fgets K ung m buf ((n : Int) + 1) F = .ok (m.write buf (lineOf (n + 1) (avail ung F) ++ [0#8]),
        (if lineOf (n + 1) (avail ung F) = [] then 0 else buf), F') ∧
      fgetsn K ung m buf ((n : Int) + 1) F = .ok (m.write buf (lineOf (n + 1) (avail ung F) ++ [0#8]),
        ((lineOf (n + 1) (avail ung F)).length : Int), F') ∧
      avail ung F' = afterLine (n + 1) (avail ung F) ∧ low24 F'.cell = low24 F.cell :=
  fgets_exact hK ung hn (hm.mono (by have := lineOf_le (n + 1) (avail ung F); omega))

/-- C41 fails: `fgets(buf, 1, f)` on a stream "a" writes 'a' and a NUL, two bytes. -/
theorem C41_refuted : ¬ C41_full := by
  intro h
  obtain ⟨l, r, F', h1, _, _⟩ := h (fun _ _ => 1) true (object 16 [7#8]) 16 0 ⟨3#32, ⟨[97#8], 0⟩⟩ (fun _ _ => by show (0 : Int) ≤ 1; decide)
    (by decide) (by intro i hi; exact ⟨7#8, by rw [show i = 0 by omega]; rfl⟩)
  unfold fgets at h1
  have hc : BitVec.ofInt 8 (fgetc (fun _ _ => 1) true ⟨3#32, ⟨[97#8], 0⟩⟩).1 = 97#8 := by decide
  rw [hc] at h1
  dsimp only at h1
  rw [store_some (b := 97#8) (c := 7#8) (by decide)] at h1
  simp only [Res.ok_bind] at h1
  rw [if_neg (by decide), if_neg (by decide), fgetsLoop, decInt_ok (by decide)] at h1
  simp only [Res.ok_bind] at h1
  rw [if_neg (by decide), store_none (by decide)] at h1
  cases h1

/-- `fgets(buf, 4, f)` on "a\nb": "a\n" and "b" left. -/
example : ∃ F', fgets (fun _ _ => 1) true (object 16 [7#8, 7#8, 7#8, 7#8]) 16 4 ⟨3#32, ⟨[97#8, 10#8, 98#8], 0⟩⟩
      = .ok ((object 16 [7#8, 7#8, 7#8, 7#8]).write 16 [97#8, 10#8, 0#8], 16, F') ∧ avail true F' = [98#8] := by
  obtain ⟨F', h1, _, h2, _⟩ := C41_fgets_partial (K := fun _ _ => 1) (fun _ _ => by show (0 : Int) ≤ 1; decide) true
    (m := object 16 [7#8, 7#8, 7#8, 7#8]) (buf := 16) (n := 3) (F := ⟨3#32, ⟨[97#8, 10#8, 98#8], 0⟩⟩) (by decide)
    (by intro i hi; exact Option.isSome_iff_exists.1 ((by decide : ∀ i < 4, ((object 16 [7#8, 7#8, 7#8, 7#8]) (16 + i)).isSome) i hi))
    (by decide)
  exact ⟨F', h1, h2⟩

/-- A loop `while (fgets(buf, size, f)) use(buf);` and the texts it sees. -/
inductive _root_.Spec.FgetsRun (K : RKernel) (ung : Bool) (buf : Nat) (size : Int) : Mem → Stream → List (List Byte) → Prop
  | stop {m m' F F'} : fgets K ung m buf size F = .ok (m', 0, F') → FgetsRun K ung buf size m F []
  | step {m m' F F' l ls} : fgets K ung m buf size F = .ok (m', buf, F') → buf ≠ 0 → m'.IsStr buf l →
      FgetsRun K ung buf size m' F' ls → FgetsRun K ung buf size m F (l :: ls)

/-- C41 (partial: one byte behind the buffer, no NUL bytes in the data): reading in a loop terminates, and the texts seen,
put together, are exactly the stream. -/
theorem C41_loop_partial {K : RKernel} (hK : NoErr K) (ung : Bool) {buf n : Nat} (hb : buf ≠ 0) (hn : n < 2147483647) :
    ∀ (k : Nat) (m : Mem) (F : Stream), (avail ung F).length ≤ k → m.Mapped buf (n + 2) → 0#8 ∉ avail ung F →
    ∃ ls, FgetsRun K ung buf ((n : Int) + 1) m F ls ∧ ls.flatten = avail ung F ∧
      ∀ ls', FgetsRun K ung buf ((n : Int) + 1) m F ls' → ls' = ls := by
  intro k
  induction k with
  | zero =>
    intro m F hk hm h0
    have hnil : avail ung F = [] := List.length_eq_zero_iff.1 (by omega)
    obtain ⟨F', h1, _, _, _⟩ := C41_fgets_long_partial hK ung (F := F) hn hm
    have hl : lineOf (n + 1) (avail ung F) = [] := by rw [hnil]; rfl
    rw [hl] at h1
    refine ⟨[], .stop h1, by simp [hnil], ?_⟩
    intro ls' h
    cases h with
    | stop => rfl
    | step a b _ _ =>
      rw [h1] at a
      simp only [if_true, Res.ok.injEq, Prod.mk.injEq] at a
      exact absurd a.2.1.symm b
  | succ k ih =>
    intro m F hk hm h0
    obtain ⟨F', h1, _, h2, _⟩ := C41_fgets_long_partial hK ung (F := F) hn hm
    have hsplit := lineOf_split (n + 1) (avail ung F) h0
    by_cases hnil : avail ung F = []
    · have hl : lineOf (n + 1) (avail ung F) = [] := by rw [hnil]; rfl
      rw [hl] at h1
      refine ⟨[], .stop h1, by simp [hnil], ?_⟩
      intro ls' h
      cases h with
      | stop => rfl
      | step a b _ _ =>
        rw [h1] at a
        simp only [if_true, Res.ok.injEq, Prod.mk.injEq] at a
        exact absurd a.2.1.symm b
    · have hl : lineOf (n + 1) (avail ung F) ≠ [] := fun e => hnil ((lineOf_nil n _ h0).1 e)
      rw [if_neg hl] at h1
      generalize hL : lineOf (n + 1) (avail ung F) = L at *
      have hpos : 0 < L.length := List.length_pos_iff.2 hl
      have hstr : (m.write buf (L ++ [0#8])).IsStr buf L :=
        isStr_iff.2 ⟨write_holds _ _ _, by rw [← hL]; exact lineOf_ne_zero _ _⟩
      obtain ⟨ls, r1, r2, r3⟩ := ih (m.write buf (L ++ [0#8])) F'
        (by rw [h2]; have := congrArg List.length hsplit; simp only [List.length_append] at this; omega)
        (hm.write _ _)
        (by rw [h2]; intro hc; exact h0 (by rw [← hsplit]; simp [hc]))
      refine ⟨L :: ls, .step h1 hb hstr r1, by rw [List.flatten_cons, r2, h2, hsplit], ?_⟩
      intro ls' h
      cases h with
      | stop a =>
        rw [h1] at a
        simp only [Res.ok.injEq, Prod.mk.injEq] at a
        exact absurd a.2.1 hb
      | step a b c d =>
        rw [h1] at a
        simp only [Res.ok.injEq, Prod.mk.injEq] at a
        obtain ⟨a1, _, a2⟩ := a
        subst a1 a2
        rw [IsStr.unique c hstr, r3 _ d]

theorem fgetsp_eq {K : RKernel} (hK : NoErr K) (ung : Bool) (n : Nat) : ∀ (m : Mem) (buf : Nat) (size : Int) (F : Stream),
    (size - 1).toNat = n → size ≠ INT_MIN → m.Mapped buf (n + 1) →
    ∃ F', fgetsp K ung m buf size F
        = .ok (m.write buf ((lineOf n (avail ung F)).takeWhile (· ≠ 10#8) ++ [0#8]),
            buf + ((lineOf n (avail ung F)).takeWhile (· ≠ 10#8)).length, F') ∧
      avail ung F' = afterLine n (avail ung F) ∧ low24 F'.cell = low24 F.cell := by
  induction n with
  | zero =>
    intro m buf size F hn h0 hm
    refine ⟨F, ?_, rfl, rfl⟩
    rw [fgetsp, decInt_ok h0]
    simp only [Res.ok_bind]
    rw [if_neg (by omega)]
    obtain ⟨x, hx⟩ := (mapped_succ.1 hm).1
    rw [store_some hx]
    simp [lineOf, write_singleton]
  | succ n ih =>
    intro m buf size F hn h0 hm
    obtain ⟨g1, g2⟩ := fgetc_byte hK ung F
    have g3 := (fgetc_view hK ung F).2.2
    obtain ⟨x, hx⟩ := (mapped_succ.1 hm).1
    rw [fgetsp, decInt_ok h0]
    simp only [Res.ok_bind]
    rw [if_pos (by omega), g1]
    cases hd : avail ung F with
    | nil =>
      rw [hd] at g2
      refine ⟨(fgetc K ung F).2, ?_, by simpa [afterLine] using g2, g3⟩
      rw [List.headD_nil]
      rw [store_some hx]
      simp [lineOf, write_singleton]
    | cons b d =>
      rw [hd] at g2
      simp only [List.tail_cons] at g2
      rw [List.headD_cons]
      rw [store_some hx]
      simp only [Res.ok_bind]
      by_cases hb1 : b = 10#8
      · subst hb1
        rw [if_pos rfl, store_some (upd_same _ _ _)]
        refine ⟨(fgetc K ung F).2, ?_, by simp [afterLine, g2], g3⟩
        simp only [Res.ok_bind, Res.pure_eq, lineOf]
        have : (m.upd buf 10#8).upd buf 0#8 = m.upd buf 0#8 := by
          funext a; simp only [upd]; split <;> rfl
        rw [this]
        simp [write_singleton]
      · rw [if_neg hb1]
        by_cases hb0 : b = 0#8
        · refine ⟨(fgetc K ung F).2, ?_, by simp [afterLine, hb0, g2], g3⟩
          rw [if_pos hb0]
          simp [lineOf, hb0, write_singleton]
        · rw [if_neg hb0, lineOf, if_neg hb0, if_neg hb1]
          obtain ⟨F', r1, r2, r3⟩ := ih (m.upd buf b) (buf + 1) (size - 1) (fgetc K ung F).2 (by omega) (by omega)
            (((mapped_succ.1 hm).2).upd _ _)
          refine ⟨F', ?_, ?_, by rw [r3, g3]⟩
          · rw [r1, g2]
            have hb1' : (decide (b ≠ 10#8)) = true := by simpa using hb1
            rw [List.takeWhile_cons, if_pos hb1']
            simp only [List.cons_append, write_cons, List.length_cons]
            congr 3
            omega
          · rw [r2, g2, afterLine, if_neg hb0, if_neg hb1]

/-- C41 for `fgetsp`: at most `size-1` bytes of a line and a NUL are written, inside of the buffer whatever the stream
holds; the newline is taken from the stream but not stored; the address of the NUL is returned. -/
theorem C41_fgetsp {K : RKernel} (hK : NoErr K) (ung : Bool) {m : Mem} {buf n : Nat} {F : Stream} (hn : n < 2147483647)
    (hm : m.Mapped buf (n + 1)) :
    ∃ l F', fgetsp K ung m buf ((n : Int) + 1) F = .ok (m.write buf (l ++ [0#8]), buf + l.length, F') ∧ l.length ≤ n ∧
      l = (lineOf n (avail ung F)).takeWhile (· ≠ 10#8) ∧
      avail ung F' = afterLine n (avail ung F) ∧ low24 F'.cell = low24 F.cell := by
  obtain ⟨F', h1, h2, h3⟩ := fgetsp_eq hK ung n m buf ((n : Int) + 1) F (by omega) (by omega) hm
  refine ⟨_, F', h1, ?_, rfl, h2, h3⟩
  exact Nat.le_trans (List.takeWhile_sublist _).length_le (lineOf_le n (avail ung F))

/-! ### C42: fgetc and ungetc -/

/-- Operations on a stream. -/
inductive _root_.Spec.SOp
  | get
  | unget (b : Byte)

/-- What they should yield: the byte pushed back (at most one), the data, and `eof` at the end. -/
def _root_.Spec.streamOps (eof : Int) : Option Byte → List Byte → List SOp → List Int × Option Byte × List Byte
  | p, d, [] => ([], p, d)
  | some b, d, .get :: ops => ((b.toNat : Int) :: (streamOps eof none d ops).1, (streamOps eof none d ops).2)
  | none, b :: d, .get :: ops => ((b.toNat : Int) :: (streamOps eof none d ops).1, (streamOps eof none d ops).2)
  | none, [], .get :: ops => (eof :: (streamOps eof none [] ops).1, (streamOps eof none [] ops).2)
  | _, d, .unget b :: ops => ((b.toNat : Int) :: (streamOps eof (some b) d ops).1, (streamOps eof (some b) d ops).2)

/-- The calls, one after the other, with their results. -/
def _root_.Spec.runOps (K : RKernel) : Stream → List SOp → List Int × Stream
  | F, [] => ([], F)
  | F, .get :: ops => ((fgetc K true F).1 :: (runOps K (fgetc K true F).2 ops).1, (runOps K (fgetc K true F).2 ops).2)
  | F, .unget b :: ops =>
    ((ungetc (b.setWidth 32) F).1 :: (runOps K (ungetc (b.setWidth 32) F).2 ops).1, (runOps K (ungetc (b.setWidth 32) F).2 ops).2)

/-- C42 in full: every byte can be pushed back, and the end is -1. -/
def C42_full : Prop :=
  ∀ (K : RKernel) (F : Stream) (ops : List SOp), NoErr K → F.cell.toNat < 2 ^ 24 →
    (runOps K F ops).1 = (streamOps (-1) none F.input.data ops).1

theorem top_toInt (c : BitVec 32) : (c.sshiftRight 24).toInt = (c.extractLsb' 24 8).toInt := by
  have h : c.sshiftRight 24 = (c.extractLsb' 24 8).signExtend 32 := by
    apply BitVec.eq_of_getLsbD_eq
    intro i hi
    simp only [BitVec.getLsbD_sshiftRight, BitVec.getLsbD_signExtend, BitVec.getLsbD_extractLsb', BitVec.msb_eq_getLsbD_last]
    by_cases h8 : i < 8
    · have : 24 + i < 32 := by omega
      simp [h8, this, hi, -BitVec.getLsbD_eq_getElem]
    · have : ¬ 24 + i < 32 := by omega
      simp [h8, this, hi, -BitVec.getLsbD_eq_getElem]
  rw [h, BitVec.toInt_signExtend_of_le (by decide)]

theorem fgetc_push {K : RKernel} {F : Stream} {b : Byte} (h : pushed true F.cell = [b]) :
    (fgetc K true F).1 = b.toInt ∧ pushed true (fgetc K true F).2.cell = [] ∧ (fgetc K true F).2.input = F.input ∧
    low24 (fgetc K true F).2.cell = low24 F.cell := by
  unfold pushed at h
  split at h
  · rename_i hc
    simp only [List.cons.injEq, and_true] at h
    have h2 : F.cell.sshiftRight 24 ≠ 0#32 := fun e => hc.2 ((sshift_zero _).1 e)
    unfold fgetc
    rw [if_pos ⟨rfl, h2⟩]
    refine ⟨by rw [top_toInt, h], ?_, rfl, clear_low _⟩
    simp [pushed, clear_byte]
  · cases h

theorem fgetc_data {K : RKernel} (hK : NoErr K) {F : Stream} (h : pushed true F.cell = []) :
    (fgetc K true F).1 = (match F.input.data with | b :: _ => (b.toNat : Int) | [] => 0) ∧
    (fgetc K true F).2.cell = F.cell ∧ (fgetc K true F).2.input.data = F.input.data.tail := by
  unfold pushed at h
  split at h
  · cases h
  · rename_i hc
    have h2 : ¬ (true = true ∧ F.cell.sshiftRight 24 ≠ 0#32) := by
      rw [Ne, sshift_zero]; exact hc
    unfold fgetc
    rw [if_neg h2]
    obtain ⟨h3, h4⟩ := sysRead_one hK F.input
    cases hd : F.input.data with
    | nil => obtain ⟨a, b⟩ := h3 hd; simp [a, b]
    | cons x d => obtain ⟨a, b⟩ := h4 x d hd; simp [a, b]

/-- C42 (partial: bytes 1 … 127 pushed back, and the end is reported as 0): every interleaving of `fgetc` and `ungetc`
yields the bytes of the stream in order, the byte pushed back first; descriptor and flags are not changed. -/
theorem C42_ops_partial {K : RKernel} (hK : NoErr K) (ops : List SOp) :
    ∀ (F : Stream) (p : Option Byte), pushed true F.cell = p.toList → (∀ b, p = some b → b.toNat < 128) →
    (∀ b, SOp.unget b ∈ ops → 0 < b.toNat ∧ b.toNat < 128) →
    (runOps K F ops).1 = (streamOps 0 p F.input.data ops).1 ∧
    pushed true (runOps K F ops).2.cell = (streamOps 0 p F.input.data ops).2.1.toList ∧
    (runOps K F ops).2.input.data = (streamOps 0 p F.input.data ops).2.2 ∧
    low24 (runOps K F ops).2.cell = low24 F.cell := by
  induction ops with
  | nil => intro F p hp _ _; cases p <;> exact ⟨rfl, hp, rfl, rfl⟩
  | cons op ops ih =>
    intro F p hp hlt hops
    have hops' : ∀ b, SOp.unget b ∈ ops → 0 < b.toNat ∧ b.toNat < 128 := fun b hb => hops b (List.mem_cons_of_mem _ hb)
    cases op with
    | get =>
      cases p with
      | some b =>
        obtain ⟨h1, h2, h3, h4⟩ := fgetc_push (K := K) (b := b) hp
        obtain ⟨i1, i2, i3, i4⟩ := ih (fgetc K true F).2 none h2 (by simp) hops'
        rw [h3] at i1 i2 i3
        have hb := hlt b rfl
        have : b.toInt = (b.toNat : Int) := by rw [BitVec.toInt_eq_toNat_cond]; split <;> omega
        exact ⟨by simp only [runOps, streamOps]; rw [i1, h1, this], i2, i3, by rw [← h4]; exact i4⟩
      | none =>
        obtain ⟨h1, h2, h3⟩ := fgetc_data hK (F := F) hp
        obtain ⟨i1, i2, i3, i4⟩ := ih (fgetc K true F).2 none (by rw [h2]; exact hp) (by simp) hops'
        rw [h3] at i1 i2 i3
        rw [h2] at i4
        cases hd : F.input.data with
        | nil =>
          rw [hd] at h1 i1 i2 i3
          exact ⟨by simp only [runOps, streamOps]; rw [i1, h1]; rfl, i2, i3, i4⟩
        | cons x d =>
          rw [hd] at h1 i1 i2 i3
          exact ⟨by simp only [runOps, streamOps]; rw [i1, h1]; rfl, i2, i3, i4⟩
    | unget b =>
      obtain ⟨hb0, hb1⟩ := hops b (List.mem_cons_self ..)
      have h8 : (b.setWidth 32).setWidth 8 = b := by
        apply BitVec.eq_of_toNat_eq; simp
      have hp' : pushed true (ungetc (b.setWidth 32) F).2.cell = [b] := by
        have hne : b ≠ 0#8 := by intro e; subst e; simp at hb0
        simp only [ungetc, pushed, unget_byte, h8]
        simp [hne]
      obtain ⟨i1, i2, i3, i4⟩ := ih (ungetc (b.setWidth 32) F).2 (some b) hp' (by intro x hx; cases hx; exact hb1) hops'
      have hv : (ungetc (b.setWidth 32) F).1 = (b.toNat : Int) := by
        simp only [ungetc]
        rw [BitVec.toInt_eq_toNat_cond]
        simp only [BitVec.toNat_setWidth]
        rw [Nat.mod_eq_of_lt (by omega)]
        split <;> omega
      have hlow : low24 (ungetc (b.setWidth 32) F).2.cell = low24 F.cell := unget_low _ _
      have hdat : (ungetc (b.setWidth 32) F).2.input = F.input := rfl
      rw [hdat] at i1 i2 i3
      rw [hlow] at i4
      cases p with
      | none => exact ⟨by simp only [runOps, streamOps]; rw [i1, hv], by simp only [runOps, streamOps]; exact i2, by simp only [runOps, streamOps]; exact i3, i4⟩
      | some q => exact ⟨by simp only [runOps, streamOps]; rw [i1, hv], by simp only [runOps, streamOps]; exact i2, by simp only [runOps, streamOps]; exact i3, i4⟩

example : (runOps (fun _ _ => 1) ⟨3#32, ⟨[97#8, 200#8], 0⟩⟩ [.get, .unget 120#8, .get, .get, .get]).1 = [97, 120, 120, 200, 0] := by
  rw [(C42_ops_partial (K := fun _ _ => 1) (fun _ _ => by show (0 : Int) ≤ 1; decide) _ _ none (by decide) (by simp)
    (by intro b hb; simp at hb; subst hb; decide)).1]
  rfl

/-- Every byte from 128 on comes back negative, and pushing back a NUL has no effect. -/
theorem C42_unget_high_partial {K : RKernel} (hK : NoErr K) (F : Stream) (b : Byte) :
    (128 ≤ b.toNat → (fgetc K true (ungetc (b.setWidth 32) F).2).1 = (b.toNat : Int) - 256) ∧
    (b = 0#8 → (fgetc K true (ungetc (b.setWidth 32) F).2).1
      = (match F.input.data with | b :: _ => (b.toNat : Int) | [] => 0)) := by
  have h8 : (b.setWidth 32).setWidth 8 = b := by
    apply BitVec.eq_of_toNat_eq; simp
  constructor
  · intro hb
    have hne : b ≠ 0#8 := by intro e; subst e; simp at hb
    have hp' : pushed true (ungetc (b.setWidth 32) F).2.cell = [b] := by
      simp only [ungetc, pushed, unget_byte, h8]
      simp [hne]
    rw [(fgetc_push (K := K) hp').1, BitVec.toInt_eq_toNat_cond, if_neg (by omega)]
    rfl
  · rintro rfl
    have hp' : pushed true (ungetc ((0#8).setWidth 32) F).2.cell = [] := by
      simp only [ungetc, pushed, unget_byte]
      simp
    exact (fgetc_data hK hp').1

/-- C42 fails at the end of the stream (0 instead of -1) … -/
theorem C42_eof_refuted : ¬ C42_full := by
  intro h
  exact absurd (h (fun _ _ => 1) ⟨3#32, ⟨[], 0⟩⟩ [.get] (fun _ _ => by show (0 : Int) ≤ 1; decide) (by decide)) (by decide)

/-- … for bytes from 128 on (negative) … -/
theorem C42_unget_refuted : ¬ C42_full := by
  intro h
  exact absurd (h (fun _ _ => 1) ⟨3#32, ⟨[97#8], 0⟩⟩ [.unget 200#8, .get] (fun _ _ => by show (0 : Int) ≤ 1; decide) (by decide)) (by decide)

/-- … and for a NUL (lost). -/
theorem C42_unget_nul_refuted : ¬ C42_full := by
  intro h
  exact absurd (h (fun _ _ => 1) ⟨3#32, ⟨[97#8], 0⟩⟩ [.unget 0#8, .get] (fun _ _ => by show (0 : Int) ≤ 1; decide) (by decide)) (by decide)

/-! ### C44: fread and fwrite -/

theorem sysRead_facts (K : RKernel) (s : Input) (n : Nat) (hn : 0 < n) :
    ∃ k, k ≤ n ∧ k ≤ s.data.length ∧ (sysRead K s n).2.1 = s.data.take k ∧ (sysRead K s n).2.2.data = s.data.drop k ∧
      ((sysRead K s n).1 = n → k = n) ∧ ((sysRead K s n).1 ≠ n → k < n) := by
  unfold sysRead
  split
  · rename_i h
    exact ⟨0, by omega, by omega, by simp, by simp, fun e => by simp only at e; omega, fun _ => hn⟩
  · refine ⟨readLen K s n, ?_, ?_, rfl, rfl, ?_, ?_⟩
    · unfold readLen; omega
    · unfold readLen; omega
    · intro e; simp only at e; omega
    · intro e
      have : readLen K s n ≤ n := by unfold readLen; omega
      simp only [ne_eq, Int.natCast_inj] at e
      omega

theorem freadLoop_eq (K : RKernel) {size : Nat} (hs : 0 < size) (n : Nat) : ∀ (m : Mem) (p : Nat) (F : Stream) (a : Nat),
    m.Mapped p (n * size) →
    ∃ c k F', freadLoop K m p size F a n = .ok (m.write p (F.input.data.take (c * size + k)), a + c, F') ∧ c ≤ n ∧
      c * size + k ≤ F.input.data.length ∧
      F'.input.data = F.input.data.drop (c * size + k) ∧
      (c = n → k = 0 ∧ F'.cell = F.cell) ∧ (c < n → k < size ∧ F'.cell = F.cell ||| FEOF_FLAG) := by
  induction n with
  | zero =>
    intro m p F a _
    exact ⟨0, 0, F, by simp [freadLoop], by omega, by simp, by simp, by simp, by simp⟩
  | succ n ih =>
    intro m p F a hm
    obtain ⟨k, h1, h2, h3, h4, h5, h6⟩ := sysRead_facts K F.input size hs
    have e1 : (n + 1) * size = n * size + size := Nat.succ_mul _ _
    have hlen : (F.input.data.take k).length = k := by simp; omega
    rw [freadLoop, h3, Mem.storeBytes_mapped (hm.mono (by rw [hlen]; omega))]
    simp only [Res.ok_bind]
    by_cases hr : (sysRead K F.input size).1 = size
    · rw [if_neg (by simpa using hr)]
      have hk := h5 hr
      subst hk
      have hm' : (m.write p (F.input.data.take k)).Mapped (p + k) (n * k) :=
        Mapped.write (fun i hi => by
          obtain ⟨x, hx⟩ := hm (k + i) (by omega)
          exact ⟨x, by rw [Nat.add_assoc]; exact hx⟩) _ _
      obtain ⟨c, j, F', r1, r2, r3, r4, r5, r6⟩ := ih (m.write p (F.input.data.take k)) (p + k)
        ⟨F.cell, (sysRead K F.input k).2.2⟩ (a + 1) hm'
      simp only [h4] at r1 r3 r4
      have e2 : (c + 1) * k = c * k + k := Nat.succ_mul _ _
      refine ⟨c + 1, j, F', ?_, by omega, ?_, ?_, ?_, ?_⟩
      · rw [r1]
        have hw : (m.write p (F.input.data.take k)).write (p + k) ((F.input.data.drop k).take (c * k + j))
            = m.write p (F.input.data.take ((c + 1) * k + j)) := by
          have : p + k = p + (F.input.data.take k).length := by rw [hlen]
          rw [this, ← write_append, ← List.take_add]
          congr 2
          omega
        rw [hw]
        congr 3
        omega
      · simp only [List.length_drop] at r3; omega
      · rw [r4, List.drop_drop]; congr 1; omega
      · intro e; exact r5 (by omega)
      · intro e; exact r6 (by omega)
    · rw [if_pos hr]
      exact ⟨0, k, ⟨F.cell ||| FEOF_FLAG, (sysRead K F.input size).2.2⟩, by simp, by omega, by simpa using h2, by simpa using h4, by omega, fun _ => ⟨h6 hr, rfl⟩⟩

/-- C44 for `fread`: all complete items which the stream delivers in spite of the kernel's chunking. -/
def C44_fread_full : Prop :=
  ∀ (K : RKernel) (m : Mem) (p size nmemb : Nat) (F : Stream), NoErr K → 0 < size → m.Mapped p (nmemb * size) →
    ∃ F', fread K m p size nmemb F
      = .ok (m.write p (F.input.data.take (nmemb * size)), min nmemb (F.input.data.length / size), F')

/-- C44 (partial: the transfer ends at the first short read): whatever the kernel answers, the bytes stored are the ones
consumed, a prefix of the data with `c` complete items (`c` is returned) and less than one item more; the flag is set if
and only if not everything was read. Nothing outside is written. -/
theorem C44_fread_partial (K : RKernel) {m : Mem} {p size nmemb : Nat} (F : Stream) (hs : 0 < size)
    (hm : m.Mapped p (nmemb * size)) :
    ∃ c k F', fread K m p size nmemb F = .ok (m.write p (F.input.data.take (c * size + k)), c, F') ∧ c ≤ nmemb ∧
      c * size + k ≤ F.input.data.length ∧
      F'.input.data = F.input.data.drop (c * size + k) ∧
      (c = nmemb → k = 0 ∧ F'.cell = F.cell) ∧ (c < nmemb → k < size ∧ F'.cell = F.cell ||| FEOF_FLAG) := by
  obtain ⟨c, k, F', h⟩ := freadLoop_eq K hs nmemb m p F 0 hm
  rw [Nat.zero_add] at h
  exact ⟨c, k, F', h⟩

/-- The kernel delivers as much as it is asked for, if the data is there (regular files). -/
def _root_.Spec.FullReads (K : RKernel) : Prop := ∀ (c n : Nat), (n : Int) ≤ K c n

theorem freadLoop_full {K : RKernel} (hK : FullReads K) {size : Nat} (hs : 0 < size) (n : Nat) :
    ∀ (m : Mem) (p : Nat) (F : Stream) (a : Nat), m.Mapped p (n * size) →
    ∃ F', freadLoop K m p size F a n
        = .ok (m.write p (F.input.data.take (n * size)), a + min n (F.input.data.length / size), F') ∧
      F'.input.data = F.input.data.drop (n * size) := by
  induction n with
  | zero => intro m p F a _; exact ⟨F, by simp [freadLoop], by simp⟩
  | succ n ih =>
    intro m p F a hm
    have e1 : (n + 1) * size = n * size + size := Nat.succ_mul _ _
    have hK1 := hK F.input.calls size
    have hr : sysRead K F.input size = (((min size F.input.data.length : Nat) : Int), F.input.data.take (min size F.input.data.length),
        ⟨F.input.data.drop (min size F.input.data.length), F.input.calls + 1⟩) := by
      unfold sysRead
      rw [if_neg (by omega)]
      have : readLen K F.input size = min size F.input.data.length := by unfold readLen; omega
      rw [this]
    rw [freadLoop, hr]
    simp only
    rw [Mem.storeBytes_mapped (hm.mono (by simp; omega))]
    simp only [Res.ok_bind]
    by_cases hl : size ≤ F.input.data.length
    · rw [Nat.min_eq_left hl, if_neg (by simp)]
      have hlen : (F.input.data.take size).length = size := by simp; omega
      have hm' : (m.write p (F.input.data.take size)).Mapped (p + size) (n * size) :=
        Mapped.write (fun i hi => by
          obtain ⟨x, hx⟩ := hm (size + i) (by omega)
          exact ⟨x, by rw [Nat.add_assoc]; exact hx⟩) _ _
      obtain ⟨F', r1, r2⟩ := ih (m.write p (F.input.data.take size)) (p + size)
        ⟨F.cell, ⟨F.input.data.drop size, F.input.calls + 1⟩⟩ (a + 1) hm'
      refine ⟨F', ?_, ?_⟩
      · rw [r1]
        have hw : (m.write p (F.input.data.take size)).write (p + size) ((F.input.data.drop size).take (n * size))
            = m.write p (F.input.data.take ((n + 1) * size)) := by
          have : p + size = p + (F.input.data.take size).length := by rw [hlen]
          rw [this, ← write_append, ← List.take_add]
          congr 2
          omega
        simp only
        rw [hw]
        have hdiv : F.input.data.length / size = (F.input.data.length - size) / size + 1 := by
          rw [Nat.div_eq_sub_div hs hl]
        simp only [List.length_drop]
        congr 3
        omega
      · rw [r2]; simp only [List.drop_drop]; congr 1; omega
    · have hmin : min size F.input.data.length = F.input.data.length := by omega
      rw [hmin, if_pos (by simp only [ne_eq, Int.natCast_inj]; omega)]
      refine ⟨⟨F.cell ||| FEOF_FLAG, ⟨F.input.data.drop F.input.data.length, F.input.calls + 1⟩⟩, ?_, ?_⟩
      · have hdiv : F.input.data.length / size = 0 := Nat.div_eq_of_lt (by omega)
        rw [hdiv, Nat.min_zero, Nat.add_zero, List.take_of_length_le (Nat.le_refl _),
          List.take_of_length_le (by omega)]
        rfl
      · simp only [List.drop_length]
        rw [List.drop_of_length_le (by omega)]

/-- C44 (partial: for a kernel that delivers what is asked for, as for regular files): everything is read up to the end
of the file, and the number of complete items is returned. -/
theorem C44_fread_regular_partial {K : RKernel} (hK : FullReads K) {m : Mem} {p size nmemb : Nat} (F : Stream) (hs : 0 < size)
    (hm : m.Mapped p (nmemb * size)) :
    ∃ F', fread K m p size nmemb F
        = .ok (m.write p (F.input.data.take (nmemb * size)), min nmemb (F.input.data.length / size), F') ∧
      F'.input.data = F.input.data.drop (nmemb * size) := by
  obtain ⟨F', h⟩ := freadLoop_full hK hs nmemb m p F 0 hm
  rw [Nat.zero_add] at h
  exact ⟨F', h⟩

/-- C44 fails: four bytes in a pipe which delivers two of them first, `fread(p, 4, 1, f)`: 0 items. -/
theorem C44_fread_refuted : ¬ C44_fread_full := by
  intro h
  have hm : (object 16 (List.replicate 4 7#8)).Mapped 16 (1 * 4) := by
    intro i hi; exact Option.isSome_iff_exists.1 ((by decide : ∀ i < 4, ((object 16 (List.replicate 4 7#8)) (16 + i)).isSome) i hi)
  obtain ⟨F', h1⟩ := h (fun _ _ => 2) (object 16 (List.replicate 4 7#8)) 16 4 1 ⟨3#32, ⟨[1#8, 2#8, 3#8, 4#8], 0⟩⟩
    (fun _ _ => by show (0 : Int) ≤ 2; decide) (by decide) hm
  unfold fread freadLoop at h1
  have hr : sysRead (fun _ _ => 2) ⟨[1#8, 2#8, 3#8, 4#8], 0⟩ 4 = (2, [1#8, 2#8], ⟨[3#8, 4#8], 1⟩) := by rfl
  simp only at h1
  rw [hr, Mem.storeBytes_mapped (hm.mono (by decide))] at h1
  simp only [Res.ok_bind] at h1
  rw [if_pos (by decide)] at h1
  simp only [Res.pure_eq, Res.ok.injEq, Prod.mk.injEq] at h1
  exact absurd h1.2.1 (by decide)

/-- C44, pushed back bytes: `fread` should deliver them first. -/
def C44_fread_push_full : Prop :=
  ∀ (K : RKernel) (m : Mem) (p size nmemb : Nat) (F : Stream), FullReads K → 0 < size → m.Mapped p (nmemb * size) →
    ∃ F' r, fread K m p size nmemb F = .ok (m.write p ((avail true F).take (nmemb * size)), r, F')

theorem C44_fread_push_refuted : ¬ C44_fread_push_full := by
  intro h
  have hm : (object 16 [7#8]).Mapped 16 (1 * 1) := by
    intro i hi; exact ⟨7#8, by rw [show i = 0 by omega]; rfl⟩
  have hF : FullReads (fun _ n => (n : Int)) := fun _ n => Int.le_refl _
  obtain ⟨F', r, h1⟩ := h (fun _ n => n) (object 16 [7#8]) 16 1 1 ⟨0x61000003#32, ⟨[98#8], 0⟩⟩ hF (by decide) hm
  obtain ⟨F2, h2, _⟩ := C44_fread_regular_partial hF (m := object 16 [7#8]) (p := 16) (size := 1) (nmemb := 1)
    ⟨0x61000003#32, ⟨[98#8], 0⟩⟩ (by decide) hm
  rw [h2] at h1
  simp only [Res.ok.injEq, Prod.mk.injEq] at h1
  have := congrFun h1.1 16
  exact absurd this (by decide)

theorem fwriteLoop_eq (K : WKernel) {m : Mem} {size : Nat} (hs : 0 < size) (cell : BitVec 32) (n : Nat) :
    ∀ (p : Nat) (l : List Byte) (w : Writes) (a : Nat), m.Holds p l → l.length = n * size →
    ∃ c k d cell', fwriteLoop K m p size cell w a n = .ok (w ++ d, a + c, cell') ∧ c ≤ n ∧
      (∀ x ∈ d, x.1 = (fileno cell).toInt) ∧ d.flatMap (fun x => x.2) = l.take (c * size + k) ∧
      (c = n → k = 0 ∧ cell' = cell) ∧ (c < n → k < size ∧ cell' = cell ||| ERR_FLAG) := by
  induction n with
  | zero =>
    intro p l w a _ hl
    exact ⟨0, 0, [], cell, by simp [fwriteLoop], by omega, by simp, by simp, by simp, by simp⟩
  | succ n ih =>
    intro p l w a hm hl
    have e1 : (n + 1) * size = n * size + size := Nat.succ_mul _ _
    have hlen : (l.take size).length = size := by simp; omega
    have hsplit : l.take size ++ l.drop size = l := List.take_append_drop ..
    rw [← hsplit] at hm
    obtain ⟨hm1, hm2⟩ := holds_append.1 hm
    have hk : kwrite K m w (fileno cell).toInt p size = .ok (sysWrite K w (fileno cell).toInt (l.take size)) := by
      conv => lhs; rw [← hlen]
      exact kwrite_eq hm1
    rw [fwriteLoop, hk]
    simp only [Res.ok_bind]
    have hr2 : (sysWrite K w (fileno cell).toInt (l.take size)).2 = min (K w (fileno cell).toInt (l.take size)) size := by
      simp only [sysWrite, hlen]
    have hr1 : (sysWrite K w (fileno cell).toInt (l.take size)).1
        = w ++ [((fileno cell).toInt, (l.take size).take (min (K w (fileno cell).toInt (l.take size)) size).toNat)] := by
      simp only [sysWrite, hlen]
    generalize min (K w (fileno cell).toInt (l.take size)) (size : Int) = q at hr1 hr2
    have hq : q ≤ size := by
      have := congrArg (fun x => x ≤ (size : Int)) hr2
      simp only [sysWrite, hlen] at this
      exact this ▸ (Int.min_le_right _ _)
    rw [hr1, hr2]
    by_cases hq2 : q = size
    · rw [if_neg (by simpa using hq2)]
      obtain ⟨c, k, d, cell', r1, r2, r3, r4, r5, r6⟩ := ih (p + size) (l.drop size)
        (w ++ [((fileno cell).toInt, (l.take size).take q.toNat)]) (a + 1) (by rw [hlen] at hm2; exact hm2) (by simp; omega)
      have e2 : (c + 1) * size = c * size + size := Nat.succ_mul _ _
      refine ⟨c + 1, k, ((fileno cell).toInt, (l.take size).take q.toNat) :: d, cell', ?_, by omega, ?_, ?_, ?_, ?_⟩
      · rw [r1]; simp only [List.append_assoc, List.cons_append, List.nil_append]; congr 3; omega
      · intro x hx
        rcases List.mem_cons.1 hx with rfl | hx
        · rfl
        · exact r3 x hx
      · rw [List.flatMap_cons, r4, hq2]
        simp only [Int.toNat_natCast, List.take_take, Nat.min_self]
        rw [← List.take_add]
        congr 1
        omega
      · intro e; exact r5 (by omega)
      · intro e; exact r6 (by omega)
    · rw [if_pos hq2]
      refine ⟨0, q.toNat, [((fileno cell).toInt, (l.take size).take q.toNat)], cell ||| ERR_FLAG, by simp, by omega, by simp, ?_,
        by omega, fun _ => ⟨by omega, rfl⟩⟩
      simp only [List.flatMap_cons, List.flatMap_nil, List.append_nil, List.take_take, Nat.zero_mul, Nat.zero_add]
      congr 1
      omega

theorem delivered_own (fd : Int) (d : Writes) (h : ∀ x ∈ d, x.1 = fd) : delivered fd d = d.flatMap (fun x => x.2) := by
  unfold delivered
  rw [List.filter_eq_self.2 (by simpa using h)]

/-- C44 for `fwrite`. -/
def C44_fwrite_full : Prop :=
  ∀ (K : WKernel) (m : Mem) (p size nmemb : Nat) (l : List Byte) (cell : BitVec 32), (∀ w fd l, 1 ≤ K w fd l) → 0 < size →
    m.Holds p l → l.length = nmemb * size →
    ∃ w' cell', fwrite K m p size nmemb cell [] = .ok (w', nmemb, cell') ∧ delivered (fileno cell).toInt w' = l

/-- C44 (partial: the transfer ends at the first short write): whatever the kernel answers, what is delivered to the
stream's descriptor (and to no other) is a prefix of the data with `c` complete items (`c` is returned) and less than one
item more; the error flag is set if and only if not everything was taken. -/
theorem C44_fwrite_partial (K : WKernel) {m : Mem} {p size nmemb : Nat} {l : List Byte} (cell : BitVec 32) (w : Writes)
    (hs : 0 < size) (hm : m.Holds p l) (hl : l.length = nmemb * size) :
    ∃ c k d cell', fwrite K m p size nmemb cell w = .ok (w ++ d, c, cell') ∧ c ≤ nmemb ∧
      (∀ x ∈ d, x.1 = (fileno cell).toInt) ∧ delivered (fileno cell).toInt d = l.take (c * size + k) ∧
      (c = nmemb → k = 0 ∧ cell' = cell) ∧ (c < nmemb → k < size ∧ cell' = cell ||| ERR_FLAG) := by
  obtain ⟨c, k, d, cell', h1, h2, h3, h4, h5⟩ := fwriteLoop_eq K hs cell nmemb p l w 0 hm hl
  rw [Nat.zero_add] at h1
  exact ⟨c, k, d, cell', h1, h2, h3, by rw [delivered_own _ _ h3, h4], h5⟩

/-- C44 (partial: a kernel that takes everything): all items are delivered. -/
theorem C44_fwrite_all_partial {K : WKernel} (hK : Accepting K) {m : Mem} {size : Nat} (cell : BitVec 32) (hs : 0 < size)
    (nmemb : Nat) : ∀ (p : Nat) (l : List Byte) (w : Writes), m.Holds p l → l.length = nmemb * size →
    ∃ d, fwrite K m p size nmemb cell w = .ok (w ++ d, nmemb, cell) ∧
      (∀ x ∈ d, x.1 = (fileno cell).toInt) ∧ delivered (fileno cell).toInt d = l := by
  have key : ∀ (n p : Nat) (l : List Byte) (w : Writes) (a : Nat), m.Holds p l → l.length = n * size →
      ∃ w' , fwriteLoop K m p size cell w a n = .ok (w', a + n, cell) := by
    intro n
    induction n with
    | zero => intro p l w a _ _; exact ⟨w, by simp [fwriteLoop]⟩
    | succ n ih =>
      intro p l w a hm hl
      have e1 : (n + 1) * size = n * size + size := Nat.succ_mul _ _
      have hlen : (l.take size).length = size := by simp; omega
      rw [← List.take_append_drop size l] at hm
      obtain ⟨hm1, hm2⟩ := holds_append.1 hm
      have hk : kwrite K m w (fileno cell).toInt p size = .ok (sysWrite K w (fileno cell).toInt (l.take size)) := by
        conv => lhs; rw [← hlen]
        exact kwrite_eq hm1
      rw [fwriteLoop, hk]
      simp only [Res.ok_bind]
      have hr2 : (sysWrite K w (fileno cell).toInt (l.take size)).2 = size := by
        simp only [sysWrite, hK w _ _, hlen]; omega
      rw [if_neg (by rw [hr2]; simp)]
      obtain ⟨w', h⟩ := ih (p + size) (l.drop size) (sysWrite K w (fileno cell).toInt (l.take size)).1 (a + 1)
        (by rw [hlen] at hm2; exact hm2) (by simp; omega)
      exact ⟨w', by rw [h]; congr 3; omega⟩
  intro p l w hm hl
  obtain ⟨c, k, d, cell', h1, h2, h3, h4, h5, h6⟩ := C44_fwrite_partial K cell w hs hm hl
  obtain ⟨w', h⟩ := key nmemb p l w 0 hm hl
  have h' : fwrite K m p size nmemb cell w = .ok (w', 0 + nmemb, cell) := h
  rw [h1] at h'
  simp only [Res.ok.injEq, Prod.mk.injEq, Nat.zero_add] at h'
  obtain ⟨q1, q2, q3⟩ := h'
  obtain ⟨hk0, _⟩ := h5 q2
  subst q2 q3 hk0
  exact ⟨d, h1, h3, by rw [h4, List.take_of_length_le (by omega)]⟩

/-- C44 fails: a kernel taking two bytes at a time, `fwrite(p, 4, 1, f)`: 0 items. -/
theorem C44_fwrite_refuted : ¬ C44_fwrite_full := by
  intro h
  have hm : (object 16 [1#8, 2#8, 3#8, 4#8]).Holds 16 [1#8, 2#8, 3#8, 4#8] := holds_object _ _
  obtain ⟨w', cell', h1, _⟩ := h (fun _ _ _ => 2) _ 16 4 1 _ 5#32 (fun _ _ _ => by show (1 : Int) ≤ 2; decide) (by decide) hm rfl
  unfold fwrite fwriteLoop at h1
  have hk := kwrite_eq (K := fun _ _ _ => 2) (w := []) (fd := (fileno 5#32).toInt) hm
  simp only [List.length_cons, List.length_nil, Nat.zero_add, Nat.reduceAdd] at hk
  rw [hk] at h1
  simp only [Res.ok_bind] at h1
  rw [if_pos (by decide)] at h1
  simp only [Res.pure_eq, Res.ok.injEq, Prod.mk.injEq] at h1
  exact absurd h1.2.1 (by decide)

example : ∃ d, fwrite (fun _ _ l => l.length) (object 16 [1#8, 2#8, 3#8, 4#8]) 16 2 2 5#32 [] = .ok ([] ++ d, 2, 5#32) ∧
    delivered 5 d = [1#8, 2#8, 3#8, 4#8] := by
  obtain ⟨d, h1, _, h2⟩ := C44_fwrite_all_partial (K := fun _ _ l => l.length) (fun _ _ _ => rfl) (size := 2) 5#32 (by decide) 2
    16 _ [] (holds_object 16 [1#8, 2#8, 3#8, 4#8]) rfl
  exact ⟨d, h1, h2⟩

/-! ### C71: numbers -/

theorem fgetNum_eq {K : RKernel} (hK : NoErr K) (ung : Bool) (w : Nat) (ds : List Byte) :
    ∀ (ret : BitVec w) (F : Stream) (rest : List Byte), avail ung F = ds ++ rest → (∀ b ∈ ds, 48 ≤ b.toNat ∧ b.toNat ≤ 57) →
    ¬ (48 ≤ (rest.headD 0#8).toNat ∧ (rest.headD 0#8).toNat ≤ 57) →
    ∃ F', fgetNum K ung w ret F = .ok (BitVec.ofNat w (ds.foldl (fun a b => a * 10 + (b.toNat - 48)) ret.toNat), F') ∧
      avail ung F' = rest.tail ∧ low24 F'.cell = low24 F.cell := by
  induction ds with
  | nil =>
    intro ret F rest h _ hr
    obtain ⟨g1, g2⟩ := fgetc_byte hK ung F
    simp only [List.nil_append] at h
    rw [h] at g1 g2
    refine ⟨(fgetc K ung F).2, ?_, g2, (fgetc_view hK ung F).2.2⟩
    rw [fgetNum]
    rw [g1, if_neg (by rintro ⟨_, a, b⟩; exact hr ⟨a, b⟩)]
    simp
  | cons b ds ih =>
    intro ret F rest h hd hr
    obtain ⟨g1, g2⟩ := fgetc_byte hK ung F
    rw [h] at g1 g2
    simp only [List.cons_append, List.tail_cons] at g2
    rw [List.cons_append, List.headD_cons] at g1
    obtain ⟨hb1, hb2⟩ := hd b (List.mem_cons_self ..)
    rw [fgetNum]
    rw [g1, if_pos ⟨by intro e; subst e; simp at hb1, hb1, hb2⟩]
    obtain ⟨F', r1, r2, r3⟩ := ih (ret * 10#w + BitVec.ofNat w (b.toNat - 48)) (fgetc K ung F).2 rest g2
      (fun x hx => hd x (List.mem_cons_of_mem _ hx)) hr
    refine ⟨F', ?_, r2, by rw [r3, (fgetc_view hK ung F).2.2]⟩
    rw [r1]
    have key : ∀ (l : List Byte) (x y : Nat), x % 2 ^ w = y % 2 ^ w →
        BitVec.ofNat w (l.foldl (fun a b => a * 10 + (b.toNat - 48)) x) = BitVec.ofNat w (l.foldl (fun a b => a * 10 + (b.toNat - 48)) y) := by
      intro l
      induction l with
      | nil => intro x y e; apply BitVec.eq_of_toNat_eq; simpa using e
      | cons c l ihl =>
        intro x y e
        simp only [List.foldl_cons]
        apply ihl
        rw [Nat.add_mod, Nat.mul_mod, e, ← Nat.mul_mod, ← Nat.add_mod]
    rw [List.foldl_cons]
    congr 2
    apply key
    simp [BitVec.toNat_add, BitVec.toNat_mul, Nat.add_mod, Nat.mul_mod]

/-- The value of a list of decimal digits. -/
def _root_.Spec.digitsValue (ds : List Byte) : Nat := ds.foldl (fun a b => a * 10 + (b.toNat - 48)) 0

/-- C71: `fgetud` and `fgetul` return the decimal number at the front of the stream (modulo 2^32 and 2^64; 0 if there is no
digit) and take the digits and the one byte behind them, whatever it is, from the stream. -/
theorem C71_fgetnum {K : RKernel} (hK : NoErr K) (ung : Bool) {F : Stream} {ds rest : List Byte} (h : avail ung F = ds ++ rest)
    (hd : ∀ b ∈ ds, 48 ≤ b.toNat ∧ b.toNat ≤ 57) (hr : ¬ (48 ≤ (rest.headD 0#8).toNat ∧ (rest.headD 0#8).toNat ≤ 57)) :
    (∃ F', fgetud K ung F = .ok (BitVec.ofNat 32 (digitsValue ds), F') ∧ avail ung F' = rest.tail ∧ low24 F'.cell = low24 F.cell) ∧
    (∃ F', fgetul K ung F = .ok (BitVec.ofNat 64 (digitsValue ds), F') ∧ avail ung F' = rest.tail ∧ low24 F'.cell = low24 F.cell) := by
  refine ⟨?_, ?_⟩
  · exact fgetNum_eq hK ung 32 ds 0#32 F rest h hd hr
  · exact fgetNum_eq hK ung 64 ds 0#64 F rest h hd hr

example : ∃ F', fgetud (fun _ _ => 1) true ⟨3#32, ⟨[49#8, 50#8, 32#8, 51#8], 0⟩⟩ = .ok (12#32, F') ∧ avail true F' = [51#8] := by
  obtain ⟨F', h1, h2, _⟩ := (C71_fgetnum (K := fun _ _ => 1) (fun _ _ => by show (0 : Int) ≤ 1; decide) true
    (F := ⟨3#32, ⟨[49#8, 50#8, 32#8, 51#8], 0⟩⟩) (ds := [49#8, 50#8]) (rest := [32#8, 51#8]) rfl (by decide) (by decide)).1
  exact ⟨F', h1, h2⟩

/-! ### C69: the flags -/

theorem fileno_of_low {a b : BitVec 32} (h : low24 a = low24 b) : fileno a = fileno b := by
  unfold fileno
  apply BitVec.eq_of_getLsbD_eq
  intro i hi
  have hb : ∀ i < 32, FD_MASK.getLsbD i = decide (i < 22) := by decide
  have := congrArg (fun x => x.getLsbD i) h
  simp only [low24, BitVec.getLsbD_setWidth] at this
  simp only [BitVec.getLsbD_and, hb i hi]
  by_cases h22 : i < 22
  · have h24 : i < 24 := by omega
    simpa [h24, h22, -BitVec.getLsbD_eq_getElem] using this
  · simp [h22]

theorem fileno_or {a f : BitVec 32} (hf : f &&& FD_MASK = 0#32) : fileno (a ||| f) = fileno a := by
  unfold fileno
  rw [BitVec.and_comm, BitVec.and_or_distrib_left, BitVec.and_comm FD_MASK f, hf, BitVec.or_zero, BitVec.and_comm]

theorem fileno_clear (a : BitVec 32) : fileno (a &&& FD_MASK) = fileno a := by
  unfold fileno
  rw [BitVec.and_assoc, BitVec.and_self]

/-- C69: whatever is read, pushed back, flagged, cleared or sought, the stream keeps its descriptor. -/
theorem C69_fileno {K : RKernel} (hK : NoErr K) (ung : Bool) (F : Stream) (c : BitVec 32) (r pos : Int) :
    fileno (fgetc K ung F).2.cell = fileno F.cell ∧ fileno (ungetc c F).2.cell = fileno F.cell ∧
    fileno (F.cell ||| FEOF_FLAG) = fileno F.cell ∧ fileno (F.cell ||| ERR_FLAG) = fileno F.cell ∧
    fileno (clearerr F.cell) = fileno F.cell ∧ fileno (fseek F.cell r).2 = fileno F.cell ∧
    fileno (fsetpos F.cell pos r).2 = fileno F.cell := by
  refine ⟨fileno_of_low (fgetc_view hK ung F).2.2, fileno_of_low (unget_low _ _), fileno_or (by decide), fileno_or (by decide),
    fileno_clear _, ?_, ?_⟩
  · unfold fseek; simp only; split
    · exact fileno_clear _
    · rfl
  · unfold fsetpos; simp only; split
    · exact fileno_clear _
    · rfl

/-- C69: `feof` reports the end of file and nothing else. -/
def C69_feof_full : Prop := ∀ cell : BitVec 32, feof cell = true ↔ cell.getLsbD 23 = true

/-- C69: after a successful `fseek` (an answer of 0 or more) `feof` is false. -/
def C69_fseek_full : Prop := ∀ (cell : BitVec 32) (r : Int), 0 ≤ r → feof (fseek cell r).2 = false

/-- C69: `clearerr` changes nothing but the flags. -/
def C69_clearerr_full : Prop := ∀ (K : RKernel) (F : Stream), NoErr K → avail true ⟨clearerr F.cell, F.input⟩ = avail true F

/-- `feof` is true after a write error. -/
theorem C69_feof_refuted : ¬ C69_feof_full := fun h => absurd ((h ERR_FLAG).1 (by decide)) (by decide)

/-- `rewind` (and `fseek` to the start) leaves the end of file flag set. -/
theorem C69_fseek_refuted : ¬ C69_fseek_full := fun h => absurd (h (3#32 ||| FEOF_FLAG) 0 (by decide)) (by decide)

/-- `clearerr` discards a character pushed back. -/
theorem C69_clearerr_refuted : ¬ C69_clearerr_full := fun h =>
  absurd (h (fun _ _ => 1) ⟨0x61000003#32, ⟨[], 0⟩⟩ (fun _ _ => by show (0 : Int) ≤ 1; decide)) (by decide)

theorem flag_clear (c : BitVec 32) : (c &&& FD_MASK) &&& FLAG_MASK = 0#32 := by
  rw [BitVec.and_assoc, show FD_MASK &&& FLAG_MASK = 0#32 by decide, BitVec.and_zero]

theorem flag_set {c f : BitVec 32} (i : Nat) (hf : f.getLsbD i = true) (hm : FLAG_MASK.getLsbD i = true) :
    (c ||| f) &&& FLAG_MASK ≠ 0#32 := by
  intro h
  have := congrArg (fun x => x.getLsbD i) h
  simp [hf, hm] at this

/-- C69 (partial: the end of file flag and the error flag cannot be told apart, and seeking to position 0 clears nothing):
`feof` and `ferror` are false for a stream just opened, with a descriptor below 2^22, true after a short read or write,
and false again after `clearerr`, after `fseek` to a position other than 0 and after a successful `fsetpos`; a failed
`fseek` or `fsetpos` changes nothing; reading and pushing back do not change the flags. -/
theorem C69_flags_partial {K : RKernel} (hK : NoErr K) (ung : Bool) (F : Stream) (x : BitVec 32) :
    (F.cell.toNat < 2 ^ 22 → feof F.cell = false ∧ ferror F.cell = false) ∧
    (feof (F.cell ||| FEOF_FLAG) = true ∧ ferror (F.cell ||| ERR_FLAG) = true) ∧
    (feof (clearerr F.cell) = false ∧ ferror (clearerr F.cell) = false) ∧
    (∀ r, 0 < r → feof (fseek F.cell r).2 = false ∧ ferror (fseek F.cell r).2 = false) ∧
    (∀ r, feof (fsetpos F.cell r r).2 = false ∧ ferror (fsetpos F.cell r r).2 = false) ∧
    (∀ r, r < 0 → (fseek F.cell r).2 = F.cell) ∧ (∀ pos r, r ≠ pos → (fsetpos F.cell pos r).2 = F.cell) ∧
    feof (fgetc K ung F).2.cell = feof F.cell ∧ feof (ungetc x F).2.cell = feof F.cell ∧
    ferror (fgetc K ung F).2.cell = ferror F.cell ∧ ferror (ungetc x F).2.cell = ferror F.cell := by
  have hlow : ∀ a b : BitVec 32, low24 a = low24 b → a &&& FLAG_MASK = b &&& FLAG_MASK := by
    intro a b h
    apply BitVec.eq_of_getLsbD_eq
    intro i hi
    have hb : ∀ i < 32, FLAG_MASK.getLsbD i = (decide (i < 24) && decide (22 ≤ i)) := by decide
    have := congrArg (fun x => x.getLsbD i) h
    simp only [low24, BitVec.getLsbD_setWidth] at this
    simp only [BitVec.getLsbD_and, hb i hi]
    by_cases h24 : i < 24
    · have : a.getLsbD i = b.getLsbD i := by simpa [h24, -BitVec.getLsbD_eq_getElem] using this
      rw [this]
    · simp [h24]
  have g1 := hlow _ _ (fgetc_view hK ung F).2.2
  have g2 : (ungetc x F).2.cell &&& FLAG_MASK = F.cell &&& FLAG_MASK := hlow _ _ (unget_low _ _)
  refine ⟨?_, ⟨?_, ?_⟩, ⟨?_, ?_⟩, ?_, ?_, ?_, ?_, ?_, ?_, ?_, ?_⟩
  · intro h
    have : F.cell &&& FLAG_MASK = 0#32 := by
      apply BitVec.eq_of_getLsbD_eq
      intro i hi
      have hb : ∀ i < 32, FLAG_MASK.getLsbD i = (decide (i < 24) && decide (22 ≤ i)) := by decide
      simp only [BitVec.getLsbD_and, hb i hi, BitVec.getLsbD_zero]
      by_cases h22 : 22 ≤ i
      · have : F.cell.getLsbD i = false := by
          rw [BitVec.getLsbD, Nat.testBit_lt_two_pow (Nat.lt_of_lt_of_le h (Nat.pow_le_pow_right (by decide) h22))]
        rw [this]; rfl
      · simp [h22]
    simp [feof, ferror, this]
  · simp only [feof, decide_eq_true_eq]; exact flag_set 23 (by decide) (by decide)
  · simp only [ferror, decide_eq_true_eq]; exact flag_set 22 (by decide) (by decide)
  · simp [feof, clearerr, flag_clear]
  · simp [ferror, clearerr, flag_clear]
  · intro r hr; simp [fseek, hr, feof, ferror, flag_clear]
  · intro r; simp [fsetpos, feof, ferror, flag_clear]
  · intro r hr; simp only [fseek]; rw [if_neg (by omega)]
  · intro pos r hr; simp only [fsetpos]; rw [if_neg hr]
  · simp only [feof]; rw [g1]
  · simp only [feof]; rw [g2]
  · simp only [ferror]; rw [g1]
  · simp only [ferror]; rw [g2]

/-! ### C70: the mode of fopen -/

/-- The flags of `open` for a mode (ISO C, POSIX `fopen`); `none`: not a mode. -/
def _root_.Spec.modeFlags (mode : List Byte) : Option (BitVec 32) :=
  match mode with
  | [] => none
  | c :: r =>
    if c = 114#8 then some (if 43#8 ∈ r then O_RDWR else O_RDONLY)
    else if c = 119#8 then some ((if 43#8 ∈ r then O_RDWR else O_WRONLY) ||| O_CREAT ||| O_TRUNC)
    else if c = 97#8 then some ((if 43#8 ∈ r then O_RDWR else O_WRONLY) ||| O_CREAT ||| O_APPEND)
    else none

/-- C70 in full. -/
def C70_full : Prop := ∀ (m : Mem) (mode : Nat) (s : List Byte), m.IsStr mode s → s.length ≤ 6 → fopenMode m mode = .ok (modeFlags s)

theorem modeLoop_eq {m : Mem} {mode : Nat} (n : Nat) : ∀ (s : List Byte) (a : Nat) (im : BitVec 32), m.IsStr (mode + a) s → s.length ≤ n →
    modeLoop m mode a im n = .ok (if 43#8 ∈ s then (im ||| O_RDWR) &&& ~~~ (O_WRONLY ||| O_RDONLY) else im) := by
  induction n with
  | zero =>
    intro s a im hs hl
    have : s = [] := List.length_eq_zero_iff.1 (by omega)
    subst this
    rw [modeLoop, load_some (isStr_nil.1 hs)]
    rfl
  | succ n ih =>
    intro s a im hs hl
    cases s with
    | nil =>
      rw [modeLoop, load_some (isStr_nil.1 hs)]
      rfl
    | cons c s =>
      obtain ⟨h1, h2, h3⟩ := isStr_cons.1 hs
      rw [modeLoop, load_some h1]
      simp only [Res.ok_bind]
      simp only [List.length_cons] at hl
      rw [if_neg h2, ih s (a + 1) _ h3 (by omega)]
      have idem : ((im ||| O_RDWR) &&& ~~~ (O_WRONLY ||| O_RDONLY) ||| O_RDWR) &&& ~~~ (O_WRONLY ||| O_RDONLY)
          = (im ||| O_RDWR) &&& ~~~ (O_WRONLY ||| O_RDONLY) := by
        apply BitVec.eq_of_getLsbD_eq
        intro i _
        simp only [BitVec.getLsbD_and, BitVec.getLsbD_or]
        cases im.getLsbD i <;> cases O_RDWR.getLsbD i <;> cases (~~~(O_WRONLY ||| O_RDONLY)).getLsbD i <;> rfl
      by_cases hc : c = 43#8
      · rw [if_pos hc, if_pos (show 43#8 ∈ c :: s by rw [hc]; exact List.mem_cons_self ..)]
        split
        · rw [idem]
        · rfl
      · rw [if_neg hc]
        have : 43#8 ∈ c :: s ↔ 43#8 ∈ s := by
          rw [List.mem_cons]; exact ⟨fun h => h.resolve_left (fun e => hc e.symm), Or.inr⟩
        simp only [this]

/-- C70 (partial: not for modes starting with 'a'): the flags given to `open` are the standard ones for every mode string
of up to six characters ("r", "rb", "r+", "r+b", "w", "w+", …); a mode with another first character is refused; only the
mode string is read. -/
theorem C70_mode_partial {m : Mem} {mode : Nat} {s : List Byte} (hs : m.IsStr mode s) (hl : s.length ≤ 6)
    (ha : s.head? ≠ some 97#8) : fopenMode m mode = .ok (modeFlags s) := by
  unfold fopenMode
  cases s with
  | nil => rw [load_some (isStr_nil.1 hs)]; rfl
  | cons c s =>
    obtain ⟨h1, h2, h3⟩ := isStr_cons.1 hs
    simp only [List.length_cons] at hl
    rw [load_some h1]
    simp only [Res.ok_bind, modeFlags]
    by_cases hc1 : c = 114#8
    · rw [if_pos hc1, if_pos hc1, modeLoop_eq 5 s 1 _ h3 (by omega)]
      split <;> rfl
    · rw [if_neg hc1, if_neg hc1]
      by_cases hc2 : c = 119#8
      · rw [if_pos hc2, if_pos hc2, modeLoop_eq 5 s 1 _ h3 (by omega)]
        split <;> rfl
      · rw [if_neg hc2, if_neg hc2]
        have hc3 : c ≠ 97#8 := by simpa using ha
        rw [if_neg hc3, if_neg hc3]
        rfl

/-- C70 (partial, modes starting with 'a'): the file is opened for reading and appending, and never created. -/
theorem C70_append_partial {m : Mem} {mode : Nat} {s : List Byte} (hs : m.IsStr mode (97#8 :: s)) (hl : s.length ≤ 5) :
    fopenMode m mode = .ok (some (O_RDWR ||| O_APPEND)) := by
  unfold fopenMode
  obtain ⟨h1, h2, h3⟩ := isStr_cons.1 hs
  rw [load_some h1]
  simp only [Res.ok_bind]
  rw [if_neg (by decide), if_neg (by decide), if_pos (by decide), modeLoop_eq 5 s 1 _ h3 (by omega)]
  split <;> rfl

example : fopenMode (object 16 [119#8, 43#8, 98#8, 0#8]) 16 = .ok (some (O_RDWR ||| O_CREAT ||| O_TRUNC)) :=
  C70_mode_partial (s := [119#8, 43#8, 98#8]) (isStr_object 16 [119#8, 43#8, 98#8] (by decide) []) (by decide) (by decide)

/-- C70 fails for "a": a file that does not exist is not created. -/
theorem C70_refuted : ¬ C70_full := by
  intro h
  have hs : (object 16 [97#8, 0#8]).IsStr 16 [97#8] := isStr_object 16 [97#8] (by decide) []
  have h1 := h _ 16 [97#8] hs (by decide)
  rw [C70_append_partial hs (by decide)] at h1
  exact absurd (Res.ok.inj h1) (by decide)

/-- C41: the lines of "a", newline, "b" in pieces of at most 3 bytes; and without the newline. -/
example : (∃ ls, FgetsRun (fun _ _ => 1) true 16 4 (object 16 [7#8, 7#8, 7#8, 7#8, 7#8]) ⟨3#32, ⟨[97#8, 10#8, 98#8], 0⟩⟩ ls ∧
      ls.flatten = [97#8, 10#8, 98#8]) ∧
    ∃ F', fgetsp (fun _ _ => 1) true (object 16 [7#8, 7#8, 7#8, 7#8, 7#8]) 16 4 ⟨3#32, ⟨[97#8, 10#8, 98#8], 0⟩⟩ =
      .ok ((object 16 [7#8, 7#8, 7#8, 7#8, 7#8]).write 16 [97#8, 0#8], 17, F') := by
  have hK : NoErr (fun _ _ => 1) := fun _ _ => by show (0 : Int) ≤ 1; decide
  constructor
  · obtain ⟨ls, h1, h2, -⟩ := C41_loop_partial hK true (buf := 16) (n := 3) (by decide) (by decide) 3 (object 16 [7#8, 7#8, 7#8, 7#8, 7#8])
      ⟨3#32, ⟨[97#8, 10#8, 98#8], 0⟩⟩ (by decide) (holds_object 16 [7#8, 7#8, 7#8, 7#8, 7#8]).mapped (by decide)
    exact ⟨ls, h1, h2⟩
  · obtain ⟨l, F', h1, -, h2, -⟩ := C41_fgetsp hK true (m := object 16 [7#8, 7#8, 7#8, 7#8, 7#8]) (buf := 16) (n := 3)
      (F := ⟨3#32, ⟨[97#8, 10#8, 98#8], 0⟩⟩) (by decide) ((holds_object 16 [7#8, 7#8, 7#8, 7#8, 7#8]).mapped.mono (by decide))
    rw [show l = [97#8] from h2.trans (by decide)] at h1
    exact ⟨F', h1⟩

/-- C42: a byte 200 that was put back. -/
example : (fgetc (fun _ _ => 1) true (ungetc 200#32 ⟨3#32, ⟨[97#8], 0⟩⟩).2).1 = -56 :=
  (C42_unget_high_partial (fun _ _ => by show (0 : Int) ≤ 1; decide) ⟨3#32, ⟨[97#8], 0⟩⟩ 200#8).1 (by decide)

/-- C44: two elements of two bytes are asked for, three bytes are there. -/
example : (∃ c F', fread (fun _ n => n) (object 16 [7#8, 7#8, 7#8, 7#8]) 16 2 2 ⟨3#32, ⟨[1#8, 2#8, 3#8], 0⟩⟩ =
      .ok ((object 16 [7#8, 7#8, 7#8, 7#8]).write 16 [1#8, 2#8, 3#8], c, F') ∧ c = 1) ∧
    (∃ m' c F', fread (fun _ _ => 1) (object 16 [7#8, 7#8, 7#8, 7#8]) 16 2 2 ⟨3#32, ⟨[1#8, 2#8, 3#8], 0⟩⟩ = .ok (m', c, F') ∧ c ≤ 2) ∧
    ∃ w c cell', fwrite (fun _ _ _ => 1) (object 16 [1#8, 2#8, 3#8, 4#8]) 16 2 2 5#32 [] = .ok (w, c, cell') ∧ c ≤ 2 := by
  have hm := (holds_object 16 [7#8, 7#8, 7#8, 7#8]).mapped
  refine ⟨?_, ?_, ?_⟩
  · obtain ⟨F', h, -⟩ := C44_fread_regular_partial (K := fun _ n => n) (fun _ _ => Int.le_refl _) (m := object 16 [7#8, 7#8, 7#8, 7#8]) (p := 16) (size := 2) (nmemb := 2)
      ⟨3#32, ⟨[1#8, 2#8, 3#8], 0⟩⟩ (by decide) hm
    exact ⟨_, F', h, by decide⟩
  · obtain ⟨c, k, F', h, h2, -⟩ := C44_fread_partial (fun _ _ => 1) (m := object 16 [7#8, 7#8, 7#8, 7#8]) (p := 16) (size := 2) (nmemb := 2)
      ⟨3#32, ⟨[1#8, 2#8, 3#8], 0⟩⟩ (by decide) hm
    exact ⟨_, c, F', h, h2⟩
  · obtain ⟨c, k, d, cell', h, h2, -⟩ := C44_fwrite_partial (fun _ _ _ => 1) (size := 2) (nmemb := 2) 5#32 [] (by decide)
      (holds_object 16 [1#8, 2#8, 3#8, 4#8]) rfl
    exact ⟨_, c, cell', h, h2⟩

/-- C69: the descriptor and the flags of stream 3. -/
example : fileno (fgetc (fun _ _ => 1) true ⟨3#32, ⟨[97#8], 0⟩⟩).2.cell = 3#32 ∧ feof 3#32 = false ∧ feof (3#32 ||| FEOF_FLAG) = true := by
  have hK : NoErr (fun _ _ => 1) := fun _ _ => by show (0 : Int) ≤ 1; decide
  have h := C69_flags_partial hK true ⟨3#32, ⟨[97#8], 0⟩⟩ 0#32
  exact ⟨((C69_fileno hK true ⟨3#32, ⟨[97#8], 0⟩⟩ 0#32 0 0).1).trans (by decide), (h.1 (by decide)).1, h.2.1.1⟩

end Minilib

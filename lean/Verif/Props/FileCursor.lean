import Verif.Spec.FileCursor
import Verif.Props.Streams
import Verif.Props.Syscall
/-
C109: streams over files: positions.
-/

set_option autoImplicit false

namespace Minilib
open Mem _root_.Spec

/-- What the partial theorem needs beyond `Meant`: forward seeks, positions an `int` can hold, and no character pushed back where it would be
forgotten or kept wrongly. -/
def Able (c : Cursor) (f : FCall) : Prop :=
  Meant c f ∧ match f with
  | .read .. => c.push = none
  | .tell => c.push = none ∧ c.pos ≤ 2147483647
  | .seek off w => 0 ≤ off ∧ c.target off w ≤ 2147483647 ∧ (w = 1 ∨ c.target off w = 0 → c.push = none)
  | .setpos x => x ≤ 2147483647
  | .rewind => c.push = none
  | _ => True

theorem fileReads_noErr : NoErr fileReads := fun _ n => by unfold fileReads; omega

theorem fileReads_full : FullReads fileReads := fun _ n => by unfold fileReads; omega

theorem freadLoop_cell {K : RKernel} {size : Nat} (n : Nat) : ∀ {m m' : Mem} {p : Nat} {F F' : Stream} {a b : Nat},
    freadLoop K m p size F a n = .ok (m', b, F') → F'.cell = F.cell ∨ F'.cell = F.cell ||| FEOF_FLAG := by
  induction n with
  | zero =>
    intro m m' p F F' a b h
    simp only [freadLoop, Res.ok.injEq, Prod.mk.injEq] at h
    exact Or.inl (by rw [h.2.2])
  | succ n ih =>
    intro m m' p F F' a b h
    rw [freadLoop] at h
    cases hs : m.storeBytes p (sysRead K F.input size).2.1 with
    | ub => rw [hs] at h; cases h
    | div => rw [hs] at h; cases h
    | ok m1 =>
      rw [hs] at h
      simp only [Res.ok_bind] at h
      split at h
      · simp only [Res.pure_eq, Res.ok.injEq, Prod.mk.injEq] at h
        exact Or.inr (by rw [← h.2.2])
      · exact ih (F := ⟨F.cell, (sysRead K F.input size).2.2⟩) h

theorem top_eof (c : BitVec 32) : (c ||| FEOF_FLAG).extractLsb' 24 8 = c.extractLsb' 24 8 := by
  rw [BitVec.extractLsb'_or]
  have : FEOF_FLAG.extractLsb' 24 8 = 0#8 := by decide
  rw [this, BitVec.or_zero]

theorem fd_eof (c : BitVec 32) : fileno (c ||| FEOF_FLAG) = fileno c := by
  unfold fileno
  apply BitVec.eq_of_getLsbD_eq
  intro i hi
  have : ∀ i < 32, ¬ (FEOF_FLAG.getLsbD i = true ∧ FD_MASK.getLsbD i = true) := by decide
  have := this i hi
  simp only [BitVec.getLsbD_and, BitVec.getLsbD_or]
  cases h1 : FEOF_FLAG.getLsbD i <;> cases h2 : FD_MASK.getLsbD i <;> simp_all

theorem top_fd (c : BitVec 32) : (c &&& FD_MASK).extractLsb' 24 8 = 0#8 := by
  rw [BitVec.extractLsb'_and]
  have : FD_MASK.extractLsb' 24 8 = 0#8 := by decide
  rw [this, BitVec.and_zero]

theorem fd_fd (c : BitVec 32) : fileno (c &&& FD_MASK) = fileno c := by
  unfold fileno
  rw [BitVec.and_assoc, BitVec.and_self]

theorem fd_low {c c' : BitVec 32} (h : low24 c = low24 c') : fileno c = fileno c' := by
  have e : ∀ x : BitVec 32, fileno x = (low24 x).setWidth 32 &&& FD_MASK := by
    intro x
    unfold fileno low24
    apply BitVec.eq_of_getLsbD_eq
    intro i hi
    have : ∀ i < 32, 24 ≤ i → FD_MASK.getLsbD i = false := by decide
    simp only [BitVec.getLsbD_and, BitVec.getLsbD_setWidth]
    by_cases h : i < 24
    · simp [h, hi]
    · simp [this i hi (by omega)]
  rw [e, e, h]

theorem pushed_none {c : BitVec 32} (h : c.extractLsb' 24 8 = 0#8) : pushed true c = [] := by simp [pushed, h]

theorem pushed_some {c : BitVec 32} {b : Byte} (h : c.extractLsb' 24 8 = b) (hb : 0 < b.toNat) : pushed true c = [b] := by
  have : b ≠ 0#8 := by rintro rfl; simp at hb
  simp [pushed, h, this]

theorem pushed_nil {c : BitVec 32} (h : pushed true c = []) : c.extractLsb' 24 8 = 0#8 := by
  unfold pushed at h
  split at h
  · cases h
  · rename_i hc
    exact Classical.byContradiction fun e => hc ⟨rfl, e⟩

theorem holds_bytesAt {m : Mem} {p n : Nat} (h : m.Mapped p n) : m.Holds p (bytesAt m p n) := by
  intro i hi
  have hi' : i < n := by simpa [bytesAt] using hi
  obtain ⟨b, hb⟩ := h i hi'
  simp [bytesAt, hb]

theorem filePut_get (data : List Byte) (pos : Nat) (l : List Byte) (i : Nat) : (filePut data pos l)[i]? = written data pos l i := by
  unfold filePut written
  by_cases hl : l = []
  · subst hl
    rw [if_pos rfl, if_neg (by simp)]
    by_cases hi : i < data.length
    · rw [if_pos hi]
    · rw [if_neg hi, if_neg (by simp), List.getElem?_eq_none (by omega)]
  · rw [if_neg hl]
    have hpre : (data.take pos ++ List.replicate (pos - data.length) 0#8).length = pos := by simp; omega
    by_cases h1 : pos ≤ i ∧ i < pos + l.length
    · rw [if_pos h1, List.getElem?_append_left (by simp; omega), List.getElem?_append_right (by omega), hpre]
    · rw [if_neg h1]
      by_cases h2 : i < pos
      · rw [List.append_assoc, List.getElem?_append_left (by omega)]
        by_cases h3 : i < data.length
        · rw [if_pos h3, List.getElem?_append_left (by simp; omega), List.getElem?_take, if_pos h2]
        · rw [if_neg h3, if_pos ⟨hl, h2⟩, List.getElem?_append_right (by simp; omega), List.getElem?_replicate, if_pos (by simp; omega)]
      · rw [List.getElem?_append_right (by simp; omega), List.getElem?_drop]
        have e : pos + l.length + (i - (data.take pos ++ List.replicate (pos - data.length) 0#8 ++ l).length) = i := by
          rw [List.length_append, hpre]; omega
        rw [e]
        by_cases h3 : i < data.length
        · rw [if_pos h3]
        · rw [if_neg h3, if_neg (by omega), List.getElem?_eq_none (by omega)]

theorem stream_lseek {u : Bool} {s : FileStream} {off w : Int} (hw : w = 0 ∨ w = 1 ∨ w = 2) (h0 : 0 ≤ off)
    (h2 : Spec.seekBase s.pos s.data.length w + off ≤ 2147483647) :
    s.lseek u 0#32 off w = .ok ({ s with pos := (Spec.seekBase s.pos s.data.length w + off).toNat }, Spec.seekBase s.pos s.data.length w + off) := by
  unfold FileStream.lseek
  rw [C81_lseek_partial (f := ⟨s.pos, s.data.length⟩) hw h0 h2]
  rfl

/-- One call. -/
theorem call_step {u : Bool} {s : FileStream} {c c' : Cursor} {f : FCall} {a : Int} (hs : c.Is s) (hf : Able c f) (h : CursorStep 0 id c f c' a) :
    ∃ s', s.call u 0#32 f = .ok (s', a) ∧ c'.Is s' ∧ fileno s'.cell = fileno s.cell ∧ s'.errno = s.errno := by
  obtain ⟨mem, cell, data, pos, errno⟩ := s
  obtain ⟨cm, cd, cp, cb⟩ := c
  obtain ⟨rfl, rfl, rfl, hp, hn⟩ := hs
  simp only at hp hn
  obtain ⟨hm, hx⟩ := hf
  cases h with
  | @pushed b e =>
    simp only at e; subst e
    obtain ⟨h1, h2, h3⟩ := hp b rfl
    obtain ⟨g1, g2, g3, g4⟩ := fgetc_push (K := fileReads) (F := ⟨cell, ⟨data.drop pos, 0⟩⟩) (pushed_some h1 h2)
    have : b.toInt = (b.toNat : Int) := by rw [BitVec.toInt_eq_toNat_cond]; split <;> omega
    simp only [FileStream.call, FileStream.stream]
    generalize fgetc fileReads true ⟨cell, ⟨data.drop pos, 0⟩⟩ = r at g1 g2 g3 g4 ⊢
    refine ⟨FileStream.reading ⟨mem, cell, data, pos, errno⟩ r.2, by rw [g1, this], ⟨rfl, rfl, ?_, by simp, fun _ => pushed_nil g2⟩, fd_low g4, rfl⟩
    simp only [FileStream.reading]
    rw [g3]; simp
  | @byte b e1 e2 =>
    simp only at e1 e2; subst e1
    obtain ⟨g1, g2, g3⟩ := fgetc_data fileReads_noErr (F := ⟨cell, ⟨data.drop pos, 0⟩⟩) (pushed_none (hn rfl))
    obtain ⟨hlt, e3⟩ := List.getElem?_eq_some_iff.1 e2
    have hd : data.drop pos = b :: data.drop (pos + 1) := by rw [← e3]; exact List.drop_eq_getElem_cons hlt
    simp only [hd, List.tail_cons] at g1 g2 g3
    simp only [FileStream.call, FileStream.stream, hd]
    generalize fgetc fileReads true ⟨cell, ⟨b :: data.drop (pos + 1), 0⟩⟩ = r at g1 g2 g3 ⊢
    refine ⟨FileStream.reading ⟨mem, cell, data, pos, errno⟩ r.2, by rw [g1], ⟨rfl, rfl, ?_, by simp, fun _ => ?_⟩, ?_, rfl⟩
    · simp only [FileStream.reading]
      rw [g3]; simp; omega
    · simp only [FileStream.reading]; rw [g2]; exact hn rfl
    · simp only [FileStream.reading]; rw [g2]
  | eof e1 e2 =>
    simp only at e1 e2; subst e1
    obtain ⟨g1, g2, g3⟩ := fgetc_data fileReads_noErr (F := ⟨cell, ⟨data.drop pos, 0⟩⟩) (pushed_none (hn rfl))
    have hd : data.drop pos = [] := List.drop_eq_nil_of_le e2
    simp only [hd, List.tail_nil] at g1 g2 g3
    simp only [FileStream.call, FileStream.stream, hd]
    generalize fgetc fileReads true ⟨cell, ⟨[], 0⟩⟩ = r at g1 g2 g3 ⊢
    refine ⟨FileStream.reading ⟨mem, cell, data, pos, errno⟩ r.2, by rw [g1], ⟨rfl, rfl, ?_, by simp, fun _ => ?_⟩, ?_, rfl⟩
    · simp only [FileStream.reading]
      rw [g3, hd]; simp
    · simp only [FileStream.reading]; rw [g2]; exact hn rfl
    · simp only [FileStream.reading]; rw [g2]
  | @unget b =>
    obtain ⟨h1, h2, _⟩ := hm
    have h8 : (b.setWidth 32).setWidth 8 = b := by apply BitVec.eq_of_toNat_eq; simp
    have hv : (b.setWidth 32).toInt = (b.toNat : Int) := by
      rw [BitVec.toInt_eq_toNat_cond]
      simp only [BitVec.toNat_setWidth]
      rw [Nat.mod_eq_of_lt (by omega)]
      split <;> omega
    refine ⟨FileStream.reading ⟨mem, cell, data, pos, errno⟩ ⟨(cell &&& ~~~ UNGETC_MASK) ||| (b.setWidth 32 <<< 24), ⟨data.drop pos, 0⟩⟩, by simp only [FileStream.call, FileStream.stream, ungetc]; rw [hv], ⟨rfl, rfl, by simp [FileStream.reading], ?_, by simp⟩, fd_low (unget_low _ _), rfl⟩
    intro b' e
    cases e
    exact ⟨by simp only [FileStream.reading, unget_byte, h8], h1, h2⟩
  | @read p size n k l e1 e2 =>
    simp only at hx e1 ⊢; subst hx
    simp only [Option.toList_none, List.nil_append, List.length_nil, Nat.sub_zero] at e1 ⊢
    subst e1
    obtain ⟨h1, h2⟩ := hm
    obtain ⟨F', g1, g2⟩ := C44_fread_regular_partial fileReads_full (F := ⟨cell, ⟨data.drop pos, 0⟩⟩) h1 h2
    have hc := freadLoop_cell n g1
    simp only at g1 g2 hc
    have hmin : min n ((data.drop pos).length / size) = k / size := by
      rw [e2]
      rcases Nat.le_total (n * size) (data.drop pos).length with h | h
      · rw [Nat.min_eq_left h, Nat.mul_div_cancel _ h1, Nat.min_eq_left ((Nat.le_div_iff_mul_le h1).2 h)]
      · rw [Nat.min_eq_right h, Nat.min_eq_right (Nat.div_le_of_le_mul (by rw [Nat.mul_comm]; exact h))]
    have htake : (data.drop pos).take (n * size) = (data.drop pos).take k := by
      rcases Nat.le_total (n * size) (data.drop pos).length with h | h
      · rw [e2, Nat.min_eq_left h]
      · rw [e2, Nat.min_eq_right h, List.take_of_length_le h, List.take_length]
    rw [hmin, htake] at g1
    refine ⟨{ FileStream.reading ⟨mem, cell, data, pos, errno⟩ F' with mem := mem.write p ((data.drop pos).take k) }, by simp only [FileStream.call, FileStream.stream]; rw [g1]; rfl, ⟨rfl, rfl, ?_, by simp, fun _ => ?_⟩, ?_, rfl⟩
    · simp only [FileStream.reading]
      rw [g2, e2]
      simp; omega
    · simp only [FileStream.reading]
      rcases hc with hc | hc <;> rw [hc]
      · exact hn rfl
      · rw [top_eof]; exact hn rfl
    · simp only [FileStream.reading]
      rcases hc with hc | hc <;> rw [hc]
      exact fd_eof _
  | @write p size n d e =>
    obtain ⟨h1, h2⟩ := hm
    simp only at e h2 ⊢
    obtain ⟨w, g1, _, g3⟩ := C44_fwrite_all_partial (K := fileTakes) (fun _ _ _ => rfl) cell h1 n p (bytesAt mem p (n * size)) []
      (holds_bytesAt h2) (by simp [bytesAt])
    have hd : filePut data pos (bytesAt mem p (n * size)) = d := List.ext_getElem? fun i => by rw [filePut_get, e]
    have hl : (bytesAt mem p (n * size)).length = n * size := by simp [bytesAt]
    unfold delivered at g3
    rw [List.nil_append] at g1
    refine ⟨FileStream.writing ⟨mem, cell, data, pos, errno⟩ w cell, by simp only [FileStream.call]; rw [g1]; rfl, ⟨rfl, ?_, ?_, hp, hn⟩, rfl, rfl⟩
    · simp only [FileStream.writing]; rw [g3, hd]
    · simp only [FileStream.writing]; rw [g3, hl]
  | tell =>
    simp only at hx
    obtain ⟨rfl, h2⟩ := hx
    have hb : Spec.seekBase pos data.length 1 + 0 = pos := by simp [Spec.seekBase]
    refine ⟨⟨mem, cell, data, (pos : Int).toNat, errno⟩, by simp only [FileStream.call]; rw [stream_lseek (s := ⟨mem, cell, data, pos, errno⟩) (by decide) (by decide) (by rw [hb]; omega), hb]; simp only [Cursor.here]; simp only [Option.toList_none, List.length_nil]; rw [Int.natCast_zero, Int.sub_zero], ⟨rfl, rfl, by simp, by simp, hn⟩, rfl, rfl⟩
  | @seek off w =>
    simp only at hx
    obtain ⟨h1, h2, h3⟩ := hx
    obtain ⟨hw, ht⟩ := hm
    have ht : 0 ≤ Cursor.target ⟨mem, data, pos, cb⟩ off w := ht
    have hb : Spec.seekBase pos data.length w + off = Cursor.target ⟨mem, data, pos, cb⟩ off w := by
      simp only [Spec.seekBase, Cursor.target, Cursor.here]
      rcases hw with rfl | rfl | rfl
      · rfl
      · rw [h3 (Or.inl rfl)]; simp
      · rfl
    have hl := stream_lseek (u := u) (s := ⟨mem, cell, data, pos, errno⟩) hw h1 (by rw [hb]; exact h2)
    rw [hb] at hl
    refine ⟨⟨mem, (fseek cell (Cursor.target ⟨mem, data, pos, cb⟩ off w)).2, data, (Cursor.target ⟨mem, data, pos, cb⟩ off w).toNat, errno⟩, by simp only [FileStream.call]; rw [hl]; rfl, ⟨rfl, rfl, rfl, by simp [Cursor.goto], fun _ => ?_⟩, ?_, rfl⟩
    · simp only [fseek]
      split
      · exact top_fd _
      · exact hn (h3 (Or.inr (by omega)))
    · simp only [fseek]
      split
      · exact fd_fd _
      · rfl
  | @setpos x =>
    simp only at hx
    have h0 : 0 ≤ x := hm
    have hb : Spec.seekBase pos data.length 0 + x = x := by simp [Spec.seekBase]
    have hl := stream_lseek (u := u) (s := ⟨mem, cell, data, pos, errno⟩) (Or.inl rfl) h0 (by rw [hb]; exact hx)
    rw [hb] at hl
    refine ⟨⟨mem, (fsetpos cell x x).2, data, x.toNat, errno⟩, by simp only [FileStream.call]; rw [hl]; rfl, ⟨rfl, rfl, rfl, by simp [Cursor.goto], fun _ => ?_⟩, ?_, rfl⟩
    · simp only [fsetpos, if_true]; exact top_fd _
    · simp only [fsetpos, if_true]; exact fd_fd _
  | rewind =>
    simp only at hx
    have hb : Spec.seekBase pos data.length 0 + 0 = 0 := by simp [Spec.seekBase]
    have hl := stream_lseek (u := u) (s := ⟨mem, cell, data, pos, errno⟩) (off := 0) (Or.inl rfl) (by decide) (by rw [hb]; decide)
    rw [hb] at hl
    refine ⟨⟨mem, (fseek cell 0).2, data, 0, errno⟩, by simp only [FileStream.call]; rw [hl]; rfl, ⟨rfl, rfl, rfl, by simp [Cursor.goto], fun _ => ?_⟩, ?_, rfl⟩
    · simp only [fseek]; exact hn hx
    · rfl

/-- C109 (partial: see `Able`, and with two deviations: the end of the file reads as 0, and positioning answers the position): any program of
reading, writing and positioning calls sees a file with a cursor. -/
theorem C109_cursor_partial {u : Bool} {fs : List FCall} {c c' : Cursor} {as : List Int} (h : CursorSteps 0 id Able c fs c' as) :
    ∀ {s : FileStream}, c.Is s →
    ∃ s', s.calls u 0#32 fs = .ok (s', as) ∧ c'.Is s' ∧ fileno s'.cell = fileno s.cell ∧ s'.errno = s.errno := by
  induction h with
  | nil => intro s hs; exact ⟨s, rfl, hs, rfl, rfl⟩
  | cons h1 h2 _ ih =>
    intro s hs
    obtain ⟨s1, g1, g2, g3, g4⟩ := call_step (u := u) hs h1 h2
    obtain ⟨s2, k1, k2, k3, k4⟩ := ih g2
    exact ⟨s2, by rw [FileStream.calls, g1, Res.ok_bind, k1]; rfl, k2, k3.trans g3, k4.trans g4⟩

/-- C109 (partial: from the beginning of the file, sizes and numbers that are an `int`, see Model/Streams.lean): what was written is read back after `rewind`. -/
theorem C109_roundtrip_partial {u : Bool} {s : FileStream} {p q size n : Nat} (hc : s.cell.extractLsb' 24 8 = 0#8) (h0 : s.pos = 0)
    (hs : 0 < size) (hp : s.mem.Mapped p (n * size)) (hq : s.mem.Mapped q (n * size)) :
    ∃ s', s.calls u 0#32 [.write p size n, .rewind, .read q size n] = .ok (s', [(n : Int), 0, (n : Int)]) ∧
      s'.mem = s.mem.write q (bytesAt s.mem p (n * size)) := by
  have hl : (bytesAt s.mem p (n * size)).length = n * size := by simp [bytesAt]
  have hf : (filePut s.data 0 (bytesAt s.mem p (n * size))).drop 0 = bytesAt s.mem p (n * size) ++ s.data.drop (n * size) := by
    unfold filePut
    split
    · rename_i h
      rw [h] at hl ⊢
      rw [← hl]; simp
    · rw [hl]; simp
  have hmin : n * size = min (n * size) (bytesAt s.mem p (n * size) ++ s.data.drop (n * size)).length := by
    rw [List.length_append, hl]; omega
  have st : CursorSteps 0 id Able ⟨s.mem, s.data, 0, none⟩ [.write p size n, .rewind, .read q size n] _ [(n : Int), 0, ((n * size) / size : Nat)] :=
    .cons ⟨⟨hs, hp⟩, trivial⟩ (.write (d := filePut s.data 0 (bytesAt s.mem p (n * size))) (fun i => filePut_get _ _ _ i))
      (.cons ⟨trivial, rfl⟩ .rewind
        (.cons ⟨⟨hs, hq⟩, rfl⟩ (.read (l := bytesAt s.mem p (n * size) ++ s.data.drop (n * size)) (k := n * size) hf hmin) .nil))
  obtain ⟨s', h1, h2, _⟩ := C109_cursor_partial (u := u) st (s := s) ⟨rfl, rfl, h0, by simp, fun _ => hc⟩
  rw [Nat.mul_div_cancel _ hs] at h1
  refine ⟨s', h1, ?_⟩
  rw [h2.1]
  simp only [Cursor.goto]
  congr 1
  rw [List.take_append_of_le_length (by omega), List.take_of_length_le (by omega)]

/-- C109: a positioning that worked is answered with the position, which a program takes for an error unless it is 0. -/
theorem C109_seek_refuted {u : Bool} {s : FileStream} {x : Int} (h0 : 0 ≤ x) (h1 : x ≤ 2147483647) :
    ∃ s', s.call u 0#32 (.seek x 0) = .ok (s', x) ∧ s'.pos = x.toNat := by
  have hb : Spec.seekBase s.pos s.data.length 0 + x = x := by simp [Spec.seekBase]
  refine ⟨_, by simp only [FileStream.call]; rw [stream_lseek (Or.inl rfl) h0 (by rw [hb]; exact h1), hb]; rfl, rfl⟩

/-- C109: seeking backwards from the current position or from the end leaves the file four gigabytes behind the position answered; the next
read finds the end of the file. -/
theorem C109_back_refuted {u : Bool} {s : FileStream} {off w : Int} (hw : w = 1 ∨ w = 2) (h0 : -2147483648 ≤ off) (h1 : off < 0)
    (h2 : 0 ≤ Spec.seekBase s.pos s.data.length w + off) (h3 : Spec.seekBase s.pos s.data.length w + off ≤ 2147483647) :
    ∃ s', s.call u 0#32 (.seek off w) = .ok (s', Spec.seekBase s.pos s.data.length w + off) ∧
      s'.pos = (Spec.seekBase s.pos s.data.length w + off + 4294967296).toNat := by
  refine ⟨_, by
    simp only [FileStream.call, FileStream.lseek]
    rw [C81_lseek_back_refuted (f := ⟨s.pos, s.data.length⟩) hw h0 h1 h2 h3]
    rfl, rfl⟩

/-- The state after a character was pushed back. -/
theorem unget_is {s : FileStream} {b : Byte} (hb : 0 < b.toNat) (hb2 : b.toNat < 128) (hc : s.cell.extractLsb' 24 8 = 0#8) {u : Bool} :
    ∃ s1, s.call u 0#32 (.unget b) = .ok (s1, (b.toNat : Int)) ∧ Cursor.Is ⟨s.mem, s.data, s.pos, some b⟩ s1 := by
  obtain ⟨s1, h1, h2, _⟩ := call_step (u := u) (s := s) (c := ⟨s.mem, s.data, s.pos, none⟩) (f := .unget b) ⟨rfl, rfl, rfl, by simp, fun _ => hc⟩
    ⟨⟨hb, hb2, rfl⟩, trivial⟩ .unget
  exact ⟨s1, h1, h2⟩

/-- C109: `rewind` keeps the character pushed back: it is what is read next, whatever the file begins with. -/
theorem C109_rewind_refuted {u : Bool} {s : FileStream} {b : Byte} (hb : 0 < b.toNat) (hb2 : b.toNat < 128) (hc : s.cell.extractLsb' 24 8 = 0#8) :
    ∃ s', s.calls u 0#32 [.unget b, .rewind, .getc] = .ok (s', [(b.toNat : Int), 0, (b.toNat : Int)]) := by
  obtain ⟨s1, h1, h2⟩ := unget_is (u := u) hb hb2 hc
  obtain ⟨g1, g2, g3, g4, _⟩ := h2
  have hbase : Spec.seekBase s1.pos s1.data.length 0 + 0 = 0 := by simp [Spec.seekBase]
  have hr : s1.call u 0#32 .rewind = .ok ({ s1 with pos := 0 }, 0) := by
    simp only [FileStream.call]
    rw [stream_lseek (Or.inl rfl) (by decide) (by rw [hbase]; decide), hbase]
    rfl
  obtain ⟨s2, k1, _⟩ := call_step (u := u) (s := { s1 with pos := 0 }) (c := ⟨s.mem, s.data, 0, some b⟩) (f := .getc)
    ⟨g1, g2, rfl, g4, by simp⟩ ⟨trivial, trivial⟩ (.pushed rfl)
  exact ⟨s2, by simp only [FileStream.calls]; rw [h1, Res.ok_bind, hr, Res.ok_bind, k1]; rfl⟩

/-- C109: `ftell` does not count the character pushed back as not yet read. -/
theorem C109_tell_refuted {u : Bool} {s : FileStream} {b : Byte} (hb : 0 < b.toNat) (hb2 : b.toNat < 128) (hc : s.cell.extractLsb' 24 8 = 0#8)
    (hp : s.pos ≤ 2147483647) :
    ∃ s', s.calls u 0#32 [.unget b, .tell] = .ok (s', [(b.toNat : Int), (s.pos : Int)]) := by
  obtain ⟨s1, h1, h2⟩ := unget_is (u := u) hb hb2 hc
  have e : s1.pos = s.pos := h2.2.2.1
  have hbase : Spec.seekBase s1.pos s1.data.length 1 + 0 = s.pos := by simp [Spec.seekBase, e]
  have hr : s1.call u 0#32 .tell = .ok ({ s1 with pos := (s.pos : Int).toNat }, (s.pos : Int)) := by
    simp only [FileStream.call]
    rw [stream_lseek (by decide) (by decide) (by rw [hbase]; omega), hbase]
  exact ⟨_, by simp only [FileStream.calls]; rw [h1, Res.ok_bind, hr]; rfl⟩

/-- C109, full statement: every program sees a file with a cursor as ISO C describes it: EOF (-1) at the end, 0 for a positioning that worked. -/
def C109_full : Prop :=
  ∀ (u : Bool) (fs : List FCall) (c c' : Cursor) (as : List Int) (s : FileStream), c.Is s → CursorSteps (-1) (fun _ => 0) Meant c fs c' as →
    ∃ s', s.calls u 0#32 fs = .ok (s', as) ∧ c'.Is s'

/-- C109 fails. -/
theorem C109_refuted : ¬ C109_full := by
  intro h
  obtain ⟨s', h1, _⟩ := h true [.seek 5 0] ⟨object 16 [], [], 0, none⟩ _ _ ⟨object 16 [], 3#32, [], 0, 0⟩ ⟨rfl, rfl, rfl, by simp, fun _ => by decide⟩
    (.cons ⟨by decide, by decide⟩ .seek .nil)
  obtain ⟨s1, h2, _⟩ := C109_seek_refuted (u := true) (s := ⟨object 16 [], 3#32, [], 0, 0⟩) (x := 5) (by decide) (by decide)
  simp only [FileStream.calls] at h1
  rw [h2] at h1
  simp only [Res.ok_bind, Res.pure_eq, Res.ok.injEq, Prod.mk.injEq, List.cons.injEq] at h1
  exact absurd h1.2.1 (by decide)

/-- A program: the file holds "abc"; read one, push x back, read it, write two bytes, ask for the position, go to 1, read. -/
example : ∃ s', FileStream.calls true 0#32 ⟨object 16 [120#8, 121#8], 3#32, [97#8, 98#8, 99#8], 0, 0⟩
    [.getc, .unget 120#8, .getc, .write 16 2 1, .tell, .seek 1 0, .getc, .seek 2 2, .getc]
      = .ok (s', [97, 120, 120, 1, 3, 1, 120, 5, 0]) ∧ s'.data = [97#8, 120#8, 121#8] := by
  have hm : (object 16 [120#8, 121#8]).Mapped 16 (1 * 2) := by
    intro i hi; exact Option.isSome_iff_exists.1 ((by decide : ∀ i < 2, ((object 16 [120#8, 121#8]) (16 + i)).isSome) i hi)
  have st : CursorSteps 0 id Able ⟨object 16 [120#8, 121#8], [97#8, 98#8, 99#8], 0, none⟩
      [.getc, .unget 120#8, .getc, .write 16 2 1, .tell, .seek 1 0, .getc, .seek 2 2, .getc] _ [97, 120, 120, 1, 3, 1, 120, 5, 0] :=
    .cons ⟨trivial, trivial⟩ (.byte (b := 97#8) rfl rfl) <|
    .cons ⟨⟨by decide, by decide, rfl⟩, trivial⟩ .unget <|
    .cons ⟨trivial, trivial⟩ (.pushed (b := 120#8) rfl) <|
    .cons ⟨⟨by decide, hm⟩, trivial⟩ (.write (d := [97#8, 120#8, 121#8]) (fun i => by
      rw [← filePut_get]; rfl)) <|
    .cons ⟨trivial, rfl, by decide⟩ .tell <|
    .cons ⟨⟨by decide, by decide⟩, by decide, by decide, fun _ => rfl⟩ .seek <|
    .cons ⟨trivial, trivial⟩ (.byte (b := 120#8) rfl rfl) <|
    .cons ⟨⟨by decide, by decide⟩, by decide, by decide, fun _ => rfl⟩ .seek <|
    .cons ⟨trivial, trivial⟩ (.eof rfl (by decide)) .nil
  obtain ⟨s', h1, h2, _⟩ := C109_cursor_partial (u := true) st (s := ⟨object 16 [120#8, 121#8], 3#32, [97#8, 98#8, 99#8], 0, 0⟩)
    ⟨rfl, rfl, rfl, by simp, fun _ => by decide⟩
  exact ⟨s', h1, h2.2.1⟩

end Minilib

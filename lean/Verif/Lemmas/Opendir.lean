import Verif.Lemmas.Fdtable
import Verif.Spec.Opendir
import Verif.Props.Dir
import Verif.Lemmas.HeapFns
import Verif.Props.Malloc
import Verif.Props.HeapFns
/-
Lemmas about directory streams in memory.
-/

set_option autoImplicit false

namespace Minilib
open Mem Spec

/-! ### Descriptors -/

theorem fd_toInt {n : Nat} (h : n < 2147483648) : (BitVec.ofNat 32 n).toInt = n := by
  rw [BitVec.toInt_eq_toNat_cond, BitVec.toNat_ofNat, Nat.mod_eq_of_lt (by omega), if_pos (by omega)]

/-! ### The struct -/

/-- The stream at `p` is `d`. -/
structure DirRep (s : DirsSt) (p fd : Nat) (name : List Byte) (d : DirSt) : Prop where
  mapped : s.heap.mem.Mapped p 2072
  fdw : s.heap.mem.HasW (p + 8) (BitVec.ofNat 32 fd)
  fdlt : fd < 1024
  bp : s.heap.mem.HasW (p + 12) (BitVec.ofNat 32 d.bufPos)
  be : s.heap.mem.HasW (p + 16) (BitVec.ofNat 32 d.bufEnd)
  buf : s.heap.mem.Holds (p + 24) d.buf
  len : d.buf.length = 2048
  ent : s.fds.getD fd none = some (.dir name d.pos)

theorem DirRep.frame {s s' : DirsSt} {p fd : Nat} {name : List Byte} {d : DirSt} (h : DirRep s p fd name d)
    (hm : ∀ i, i < 2072 → s'.heap.mem (p + i) = s.heap.mem (p + i)) (hf : s'.fds.getD fd none = s.fds.getD fd none) :
    DirRep s' p fd name d := by
  have hw : ∀ k w, k + 4 ≤ 2072 → s.heap.mem.HasW (p + k) w → s'.heap.mem.HasW (p + k) w := by
    intro k w hk hh
    apply HasW.congr hh
    intro x h1 h2
    have := hm (x - p) (by omega)
    rwa [show p + (x - p) = x by omega] at this
  refine ⟨?_, hw 8 _ (by omega) h.fdw, h.fdlt, hw 12 _ (by omega) h.bp, hw 16 _ (by omega) h.be, ?_, h.len, by rw [hf]; exact h.ent⟩
  · intro i hi
    rw [hm i hi]
    exact h.mapped i hi
  · intro i hi
    have h1 := h.len
    rw [Nat.add_assoc, hm (24 + i) (by omega), ← Nat.add_assoc]
    exact h.buf i hi

theorem le16_leNat {l : List Byte} {q n : Nat} (h : le16 l q = some n) : n = leNat ((l.drop q).take 2) ∧ ((l.drop q).take 2).length = 2 ∧ n < 65536 := by
  have hl := le16_length h
  unfold le16 at h
  rw [if_pos hl] at h
  injection h with h
  have h1 : (l.drop q).take 2 = [l[q], l[q + 1]] := by
    rw [List.drop_eq_getElem_cons (by omega), List.drop_eq_getElem_cons (by omega)]
    rfl
  rw [h1, ← h]
  simp only [List.getD_eq_getElem?_getD, List.getElem?_eq_getElem (show q < l.length by omega),
    List.getElem?_eq_getElem (show q + 1 < l.length by omega), Option.getD_some, leNat]
  have a := (l[q]).isLt
  have b := (l[q + 1]).isLt
  refine ⟨by omega, rfl, by omega⟩

theorem holds_part {m : Mem} {p : Nat} {l : List Byte} (h : m.Holds p l) (q n : Nat) : m.Holds (p + q) ((l.drop q).take n) := by
  intro i hi
  simp only [List.length_take, List.length_drop] at hi
  rw [Nat.add_assoc, h (q + i) (by omega), List.getElem_take, List.getElem_drop]

theorem reclen_le16 {m : Mem} {p : Nat} {l : List Byte} (h : m.Holds p l) {q n : Nat} (hn : le16 l (q + 16) = some n) :
    reclen m (p + q) = .ok n := by
  obtain ⟨h1, h2, -⟩ := le16_leNat hn
  have := loadBytes_holds (holds_part h (q + 16) 2)
  rw [h2] at this
  unfold reclen
  rw [Nat.add_assoc, this, Res.ok_bind, ← h1]
  rfl

/-- The record is handed out. -/
theorem readdirNextMem_eq {s : DirsSt} {p fd : Nat} {name : List Byte} {d d' : DirSt} {o : Option Nat} (h : DirRep s p fd name d)
    (hr : readdirNext d = .ok (d', o)) :
    o = some d.bufPos ∧ ∃ s', readdirNextMem s p = .ok (s', p + 24 + d.bufPos) ∧ DirRep s' p fd name d' ∧
      (∀ x, x < p ∨ p + 2072 ≤ x → s'.heap.mem x = s.heap.mem x) ∧ s'.heap.mbufsize = s.heap.mbufsize ∧ s'.fds = s.fds ∧
      s'.errno = s.errno ∧ s'.calls = s.calls ∧ s'.opens = s.opens ∧ s'.heap.mem.Holds (p + 24) d.buf := by
  unfold readdirNext at hr
  split at hr
  case h_2 => cases hr
  rename_i n off e1 e2
  injection hr with hr
  injection hr with hr1 hr2
  subst hr1 hr2
  refine ⟨rfl, ?_⟩
  have hl := h.len
  have hle := le16_length e1
  obtain ⟨-, -, hn⟩ := le16_leNat e1
  have hbn : (BitVec.ofNat 32 d.bufPos).toNat = d.bufPos := by rw [BitVec.toNat_ofNat]; omega
  unfold readdirNextMem
  rw [loadW_eq h.bp, Res.ok_bind, if_neg (by rw [fd_toInt (by omega)]; omega), hbn]
  dsimp only
  rw [reclen_le16 h.buf e1, Res.ok_bind, fd_toInt (by omega), ckInt_ok (by omega) (by omega), Res.ok_bind]
  have hm12 : s.heap.mem.Mapped (p + 12) 4 := h.bp.mapped
  rw [storeW_eq _ hm12, Res.ok_bind]
  have hb1 : (s.heap.mem.write (p + 12) (wordBytes (BitVec.ofInt 32 ((d.bufPos : Int) + n)))).Holds (p + 24) d.buf :=
    h.buf.write (by left; simp)
  have hof : ((d.buf.drop (d.bufPos + 8)).take 8).length = 8 := by simp; omega
  have hld := loadBytes_holds (holds_part hb1 (d.bufPos + 8) 8)
  rw [hof] at hld
  rw [show p + 24 + d.bufPos + 8 = p + 24 + (d.bufPos + 8) by omega, hld, Res.ok_bind]
  rw [storeBytes_mapped (by rw [hof]; exact (h.mapped.mono (by omega)).write _ _), Res.ok_bind]
  refine ⟨_, rfl, ⟨?_, ?_, h.fdlt, ?_, ?_, ?_, h.len, h.ent⟩, ?_, rfl, rfl, rfl, rfl, rfl, ?_⟩
  · exact (h.mapped.write _ _).write _ _
  · exact (h.fdw.write (by right; simp)).write (by left; omega)
  · show HasW _ _ _
    rw [show BitVec.ofNat 32 (d.bufPos + n) = BitVec.ofInt 32 ((d.bufPos : Int) + n) by
      rw [show (d.bufPos : Int) + n = ((d.bufPos + n : Nat) : Int) by omega, BitVec.ofInt_natCast]]
    exact (hasW_write_same _ _ _).write (by left; omega)
  · exact (h.be.write (by left; simp)).write (by left; omega)
  · exact hb1.write (by left; omega)
  · intro x hx
    show (write _ _ _) x = _
    rw [write_outside _ _ _ _ (by omega), write_outside _ _ _ _ (by simp; omega)]
  · exact hb1.write (by left; omega)

/-- A call of `readdir` on a stream in memory is one on the stream. -/
theorem readdirMem_eq {K : DirsK} {s : DirsSt} {p fd : Nat} {name : List Byte} {d d' : DirSt} {o : Option Nat}
    {e : List (List Byte) × (Nat → Int)} (h : DirRep s p fd name d) (he : K.dir name = some e) (h1 : d.errno = s.errno)
    (h2 : d.calls = s.calls) (hb : d.bufPos ≤ 2048) (hb' : d.bufEnd ≤ 2048) (hp : 0 < p) (hr : readdir (K.kern e) d = .ok (d', o)) :
    ∃ s', readdirMem K s p = .ok (s', match o with | none => 0 | some q => p + 24 + q) ∧ DirRep s' p fd name d' ∧
      (∀ x, x < p ∨ p + 2072 ≤ x → s'.heap.mem x = s.heap.mem x) ∧ s'.heap.mbufsize = s.heap.mbufsize ∧
      (∀ i, i ≠ fd → s'.fds.getD i none = s.fds.getD i none) ∧ s'.calls = d'.calls ∧ s'.errno = d'.errno ∧ s'.opens = s.opens := by
  have hl := h.len
  unfold readdirMem
  rw [loadW_eq h.bp, Res.ok_bind, loadW_eq h.be, Res.ok_bind, fd_toInt (by omega), fd_toInt (by omega)]
  unfold readdir at hr
  by_cases hc : d.bufPos ≥ d.bufEnd
  · rw [if_pos hc] at hr
    rw [if_pos (by omega), loadW_eq h.fdw, Res.ok_bind, fd_toInt (by have := h.fdlt; omega)]
    unfold getdentsFd
    rw [fdGet_nat, h.ent]
    dsimp only
    rw [he]
    dsimp only
    -- the system call
    rw [hl] at hr
    have hg : ∃ l : List Byte, ∃ pos' e' c' r, l.length ≤ 2048 ∧ r ≤ 2048 ∧
        getdents (K.kern e) { tell := none, bufPos := 0, bufEnd := 0, buf := [], errno := s.errno, pos := d.pos, calls := s.calls } 2048 =
          ({ tell := none, bufPos := 0, bufEnd := 0, buf := l, errno := e', pos := pos', calls := c' }, r) ∧
        getdents (K.kern e) d 2048 = ({ d with buf := l ++ d.buf.drop l.length, errno := e', pos := pos', calls := c' }, r) := by
      unfold getdents
      dsimp only
      rw [h2]
      split
      · refine ⟨[], _, _, _, _, by simp, by omega, rfl, ?_⟩
        cases d; rfl
      · rename_i k _
        split
        · refine ⟨[], _, _, _, _, by simp, by omega, rfl, ?_⟩
          cases d; rfl
        · obtain ⟨-, -, -, hlen⟩ := takeFit_prefix 2048 (((K.kern e).es.drop d.pos).take (k + 1))
          refine ⟨_, d.pos + (takeFit 2048 (((K.kern e).es.drop d.pos).take (k + 1))).length, s.errno, s.calls + 1,
            ((takeFit 2048 (((K.kern e).es.drop d.pos).take (k + 1))).flatten.length : Nat), hlen, by omega, ?_, ?_⟩
          · simp only [List.drop_nil, List.append_nil]
          · cases d; simp only at h1; subst h1; rfl
    obtain ⟨l, pos', e', c', r, hg0, hg3, hg1, hg2⟩ := hg
    rw [hg1]
    rw [hg2] at hr
    dsimp only at hr ⊢
    have hmb : s.heap.mem.Mapped (p + 24) l.length := by
      intro i hi
      have := h.mapped (24 + i) (by omega)
      rwa [← Nat.add_assoc] at this
    rw [storeBytes_mapped hmb, Res.ok_bind]
    simp only [Res.pure_eq, Res.ok_bind, Int.toNat_natCast]
    have hfd : ∀ i, i ≠ fd → (fdPut s.fds fd (some (FdEnt.dir name pos'))).getD i none = s.fds.getD i none := by
      intro i hi
      rw [fdPut_getD, if_neg hi]
    have hent : (fdPut s.fds fd (some (FdEnt.dir name pos'))).getD fd none = some (.dir name pos') := by
      rw [fdPut_getD, if_pos rfl]
    have hwl : (s.heap.mem.write (p + 24) l).Holds (p + 24) (l ++ d.buf.drop l.length) := by
      intro i hi
      simp only [List.length_append, List.length_drop] at hi
      by_cases hil : i < l.length
      · rw [write_inside _ _ _ _ hil, List.getElem_append_left hil]
      · rw [write_outside _ _ _ _ (by omega), List.getElem_append_right (by omega), List.getElem_drop, h.buf i (by omega)]
        congr 2
        omega
    have hwlen : (l ++ d.buf.drop l.length).length = 2048 := by simp; omega
    by_cases hr0 : r ≤ 0
    · rw [if_pos hr0] at hr ⊢
      split at hr
      · rename_i hr1
        rw [if_pos hr1]
        injection hr with hr
        injection hr with hr2 hr3
        subst hr2 hr3
        refine ⟨_, rfl, ⟨?_, ?_, h.fdlt, ?_, ?_, hwl, hwlen, hent⟩, ?_, rfl, hfd, rfl, rfl, rfl⟩
        · exact h.mapped.write _ _
        · exact h.fdw.write (by right; omega)
        · exact h.bp.write (by right; omega)
        · exact h.be.write (by right; omega)
        · intro x hx
          exact write_outside _ _ _ _ (by omega)
      · rename_i hr1
        rw [if_neg hr1]
        injection hr with hr
        injection hr with hr2 hr3
        subst hr2 hr3
        refine ⟨_, rfl, ⟨?_, ?_, h.fdlt, ?_, ?_, hwl, hwlen, hent⟩, ?_, rfl, hfd, rfl, rfl, rfl⟩
        · exact h.mapped.write _ _
        · exact h.fdw.write (by right; omega)
        · exact h.bp.write (by right; omega)
        · exact h.be.write (by right; omega)
        · intro x hx
          exact write_outside _ _ _ _ (by omega)
    · rw [if_neg hr0] at hr ⊢
      have hm16 : (s.heap.mem.write (p + 24) l).Mapped (p + 16) 4 := h.be.mapped.write _ _
      rw [storeW_eq _ hm16, Res.ok_bind, storeW_eq _ ((h.bp.mapped.write _ _).write _ _), Res.ok_bind]
      have rep : DirRep (DirsSt.setMem { s with
            heap := ⟨s.heap.mem.write (p + 24) l, s.heap.mbufsize⟩, fds := fdPut s.fds fd (some (.dir name pos')), errno := e', calls := c' }
            (((s.heap.mem.write (p + 24) l).write (p + 16) (wordBytes (BitVec.ofInt 32 r))).write (p + 12) (wordBytes 0#32))) p fd name
          { d with buf := l ++ d.buf.drop l.length, errno := e', pos := pos', calls := c', bufEnd := r.toNat, bufPos := 0 } := by
        refine ⟨?_, ?_, h.fdlt, ?_, ?_, ?_, hwlen, hent⟩
        · exact ((h.mapped.write _ _).write _ _).write _ _
        · exact ((h.fdw.write (by right; omega)).write (by right; omega)).write (by right; omega)
        · exact hasW_write_same _ _ _
        · show HasW _ _ _
          rw [show BitVec.ofNat 32 r.toNat = BitVec.ofInt 32 r by
            conv => rhs; rw [show r = (r.toNat : Int) by omega]
            rw [BitVec.ofInt_natCast]]
          exact (hasW_write_same _ _ _).write (by left; simp)
        · exact (hwl.write (by left; simp)).write (by left; simp)
      obtain ⟨ho, s', q1, q2, q3, q4, q5, q6, q7, q8, -⟩ := readdirNextMem_eq rep hr
      subst ho
      refine ⟨s', q1, q2, ?_, q4, ?_, ?_, ?_, q8⟩
      · intro x hx
        rw [q3 x hx]
        show (write _ _ _) x = _
        rw [write_outside _ _ _ _ (by simp; omega), write_outside _ _ _ _ (by simp; omega), write_outside _ _ _ _ (by omega)]
      · intro i hi
        rw [q5]
        exact hfd i hi
      · rw [q7]
        unfold readdirNext at hr
        split at hr
        · injection hr with hr; injection hr with hr _; subst hr; rfl
        · cases hr
      · rw [q6]
        unfold readdirNext at hr
        split at hr
        · injection hr with hr; injection hr with hr _; subst hr; rfl
        · cases hr
  · rw [if_neg hc] at hr
    rw [if_neg (by omega)]
    obtain ⟨ho, s', q1, q2, q3, q4, q5, q6, q7, q8, -⟩ := readdirNextMem_eq h hr
    subst ho
    refine ⟨s', q1, q2, q3, q4, fun i _ => by rw [q5], ?_, ?_, q8⟩
    · rw [q7]
      unfold readdirNext at hr
      split at hr
      · injection hr with hr; injection hr with hr _; subst hr; exact h2.symm
      · cases hr
    · rw [q6]
      unfold readdirNext at hr
      split at hr
      · injection hr with hr; injection hr with hr _; subst hr; exact h1.symm
      · cases hr

/-! ### The heap -/

/-- A block that is freed at once: the arena is as before. -/
theorem malloc_free {A : Arena} {h : Heap} {bs : List Blk} (ok : HeapOk A h bs) {n : Nat} (h1 : 1 ≤ n) (h2 : n ≤ 2147483640)
    (hr : 64 ≤ h.mbufsize - need n) {h' : Heap} {p : Nat} (hm : malloc A h n = .ok (h', p)) :
    free A h' p = .ok ⟨h'.mem, h.mbufsize⟩ := by
  obtain ⟨k, e1, e2, e3, -⟩ := malloc_succ ok h1 h2 hr
  rw [e1] at hm
  injection hm with hm
  injection hm with hm1 hm2
  subst hm1 hm2
  have m0 := e3.mb0
  have m4 := e3.mb4
  have hn : need n = 4 * ((n + 3) / 4 + 1) := rfl
  have htot := chain_total e3.chain
  have htot' := chain_total ok.chain
  have hsz := ok.sizeLt
  have hsg := ok.sizeGe
  have hb4 := ok.base4
  obtain ⟨hge, ⟨q, hq, -⟩, -, hc⟩ := e3.chain
  simp only [total] at htot
  have hlen : (n + 3) / 4 + 1 < 2 ^ 28 := by omega
  unfold free
  rw [if_neg (by omega)]
  dsimp only
  rw [if_pos (by omega), show ((A.base + k.mbufsize.toNat + 4 : Nat) : Int) - 4 = ((A.base + k.mbufsize.toNat : Nat) : Int) by omega,
    loadW_eq hq, Res.ok_bind, hdr_and_V_toNat hlen]
  rw [show k.mbufsize + 4 * (((n + 3) / 4 + 1 : Nat) : Int) = h.mbufsize by omega, if_neg (by omega)]
  have hw : ∃ w, k.mem.HasW (A.base + h.mbufsize.toNat) w ∧ w &&& MBUF_FREE = 0#32 := by
    rw [show A.base + k.mbufsize.toNat + 4 * ((n + 3) / 4 + 1) = A.base + h.mbufsize.toNat by omega] at hc
    cases bs with
    | nil =>
      obtain ⟨-, w, hw, hf⟩ := hc
      exact ⟨w, hw, hf.resolve_left (by simp)⟩
    | cons b bs =>
      obtain ⟨-, ⟨q', hq', -⟩, -, -⟩ := hc
      have hfr : b.fr = false := by
        obtain ⟨-, -, hf, -⟩ := ok.chain
        cases hb : b.fr with
        | false => rfl
        | true => have := (hf hb).2; cases this
      rw [hfr] at hq'
      refine ⟨_, hq', ?_⟩
      simp only [total] at htot
      have := hdr_and_FREE (n := b.n) (by omega) false q'
      simpa using this
  obtain ⟨w, hw1, hw2⟩ := hw
  have hm4 := ok.mb4
  have hm0 := ok.mb0
  rw [show A.word h.mbufsize = ((A.base + h.mbufsize.toNat : Nat) : Int) by unfold Arena.word; omega, loadW_eq hw1, Res.ok_bind,
    if_neg (by simp [hw2])]
  rfl

/-- Anything written into a block the program holds. -/
theorem Reach.any {A : Arena} {m₀ : Mem} {h : Heap} {live : List (Nat × Nat)} {sh : Mem} {p n : Nat} (r : Reach A m₀ ⟨h, live, sh⟩)
    (hl : (p, n) ∈ live) {h' : Heap} (hmb : h'.mbufsize = h.mbufsize) (hm : ∀ x, x < p ∨ p + n ≤ x → h'.mem x = h.mem x)
    (hM : h'.mem.Mapped p n) : ∃ sh', Reach A m₀ ⟨h', live, sh'⟩ := by
  obtain ⟨l, h1, h2⟩ := exists_holds hM
  have := r.write hl 0 l (by omega)
  refine ⟨sh.write (p + 0) l, ?_⟩
  · have e : h' = ⟨h.mem.write (p + 0) l, h.mbufsize⟩ := by
      obtain ⟨m', mb'⟩ := h'
      simp only at hmb hm h2
      subst hmb
      congr 1
      funext x
      rw [Nat.add_zero]
      by_cases hx : x < p ∨ p + n ≤ x
      · rw [write_outside _ _ _ _ (by omega)]; exact hm x hx
      · have a := h2 (x - p) (by omega)
        have b := write_inside h.mem p l (x - p) (by omega)
        rw [show p + (x - p) = x by omega] at a b
        rw [a, b]
    rw [e]
    exact this

theorem live_disj {A : Arena} {m₀ : Mem} (hA : A.Ok m₀) {c : Client} (r : Reach A m₀ c) {p n q k : Nat} (h1 : (p, n) ∈ c.live)
    (h2 : (q, k) ∈ c.live) (hne : p ≠ q) : p + n ≤ q ∨ q + k ≤ p := by
  obtain ⟨bs, L⟩ := reach_linked hA r
  have := liveBlks_disjoint_hdr (chain_ge2 L.heap.chain) (L.held p n h1).2 (L.held q k h2).2 hne (n := n) (n' := k) (by omega) (by omega)
  omega

theorem live_mapped {A : Arena} {m₀ : Mem} (hA : A.Ok m₀) {c : Client} (r : Reach A m₀ c) {p n : Nat} (h1 : (p, n) ∈ c.live) :
    c.heap.mem.Mapped p n ∧ 0 < p := by
  obtain ⟨bs, L⟩ := reach_linked hA r
  obtain ⟨-, -, h3, -⟩ := C17_history hA r
  obtain ⟨-, h5, h6, h7⟩ := h3 p n h1
  have h0 := L.heap.mb0
  refine ⟨?_, by omega⟩
  intro i hi
  have := L.heap.mapped (p + i - A.base) (by omega)
  rwa [show A.base + (p + i - A.base) = p + i by omega] at this

/-! ### The invariant -/

/-- The stream `st` is open at `p`. -/
def StrOk (K : DirsK) (s : DirsSt) (p fd : Nat) (st : DStream) : Prop :=
  ∃ d e, DirRep s p fd st.name d ∧ K.dir st.name = some e ∧ DirAt (K.kern e) d st.pos ∧
    ∀ q r, st.last = some (q, r) → s.heap.mem.Holds q r ∧ p + 24 ≤ q ∧ q + r.length ≤ p + 2072

theorem StrOk.frame {K : DirsK} {s s' : DirsSt} {p fd : Nat} {st : DStream} (h : StrOk K s p fd st)
    (hm : ∀ i, i < 2072 → s'.heap.mem (p + i) = s.heap.mem (p + i)) (hf : s'.fds.getD fd none = s.fds.getD fd none) :
    StrOk K s' p fd st := by
  obtain ⟨d, e, h1, h2, h3, h4⟩ := h
  refine ⟨d, e, h1.frame hm hf, h2, h3, ?_⟩
  intro q r hl
  obtain ⟨g1, g2, g3⟩ := h4 q r hl
  refine ⟨?_, g2, g3⟩
  intro i hi
  have := hm (q + i - p) (by omega)
  rw [show p + (q + i - p) = q + i by omega] at this
  rw [this]
  exact g1 i hi

/-- The state of the program and what it holds; `fdOf` are the descriptors of the streams. -/
structure DInv (A : Arena) (m₀ : Mem) (K : DirsK) (fds₀ : List (Option FdEnt)) (s : DirsSt) (a : DState) (fdOf : Nat → Nat)
    (live : List (Nat × Nat)) (sh : Mem) : Prop where
  reach : Reach A m₀ ⟨s.heap, live, sh⟩
  perm : live.Perm (a.streams.map (fun x => (x.1, 2072)) ++ a.blocks)
  shadow : ∀ q n i b, (q, n) ∈ a.blocks → i < n → a.shadow (q + i) = some b → s.heap.mem (q + i) = some b
  strm : ∀ p st, (p, st) ∈ a.streams → StrOk K s p (fdOf p) st
  inj : ∀ p st p' st', (p, st) ∈ a.streams → (p', st') ∈ a.streams → fdOf p = fdOf p' → p = p'
  table : ∀ i, (∀ p st, (p, st) ∈ a.streams → fdOf p ≠ i) → s.fds.getD i none = fds₀.getD i none
  fresh : ∀ p st, (p, st) ∈ a.streams → fds₀.getD (fdOf p) none = none

section
variable {A : Arena} {m₀ : Mem} {K : DirsK} {fds₀ : List (Option FdEnt)} {s : DirsSt} {a : DState} {fdOf : Nat → Nat}
  {live : List (Nat × Nat)} {sh : Mem}

theorem DInv.liveStream (I : DInv A m₀ K fds₀ s a fdOf live sh) {p : Nat} {st : DStream} (h : (p, st) ∈ a.streams) : (p, 2072) ∈ live :=
  I.perm.mem_iff.2 (List.mem_append_left _ (List.mem_map.2 ⟨_, h, rfl⟩))

theorem DInv.liveBlock (I : DInv A m₀ K fds₀ s a fdOf live sh) {q n : Nat} (h : (q, n) ∈ a.blocks) : (q, n) ∈ live :=
  I.perm.mem_iff.2 (List.mem_append_right _ h)

theorem DInv.keys (I : DInv A m₀ K fds₀ s a fdOf live sh) (hA : A.Ok m₀) : (a.streams.map (·.1) ++ a.blocks.map (·.1)).Nodup := by
  obtain ⟨bs, L⟩ := reach_linked hA I.reach
  have := (I.perm.map (·.1)).nodup_iff.1 L.nodup
  simpa [List.map_append, List.map_map, Function.comp_def] using this

theorem DInv.one (I : DInv A m₀ K fds₀ s a fdOf live sh) (hA : A.Ok m₀) {p : Nat} {st st' : DStream} (h : (p, st) ∈ a.streams)
    (h' : (p, st') ∈ a.streams) : st' = st := by
  have hk := (List.nodup_append.1 (I.keys hA)).1
  clear I
  generalize a.streams = l at *
  induction l with
  | nil => cases h
  | cons x l ih =>
    simp only [List.map_cons, List.nodup_cons] at hk
    rcases List.mem_cons.1 h with rfl | g
    · rcases List.mem_cons.1 h' with g' | g'
      · injection g'
      · exact absurd (List.mem_map.2 ⟨_, g', rfl⟩) hk.1
    · rcases List.mem_cons.1 h' with rfl | g'
      · exact absurd (List.mem_map.2 ⟨_, g, rfl⟩) hk.1
      · exact ih g g' hk.2

theorem DInv.apart (I : DInv A m₀ K fds₀ s a fdOf live sh) (hA : A.Ok m₀) {p q n : Nat} {st : DStream} (h : (p, st) ∈ a.streams)
    (h' : (q, n) ∈ a.blocks) : p ≠ q := by
  intro e
  subst e
  exact (List.nodup_append.1 (I.keys hA)).2.2 p (List.mem_map.2 ⟨_, h, rfl⟩) p (List.mem_map.2 ⟨_, h', rfl⟩) rfl

/-- A call on one stream. -/
theorem DInv.change (I : DInv A m₀ K fds₀ s a fdOf live sh) (hA : A.Ok m₀) {s' : DirsSt} {p : Nat} {st : DStream} {f : DStream → DStream}
    (hp : (p, st) ∈ a.streams) (hm : ∀ x, x < p ∨ p + 2072 ≤ x → s'.heap.mem x = s.heap.mem x) (hmb : s'.heap.mbufsize = s.heap.mbufsize)
    (hfd : ∀ i, i ≠ fdOf p → s'.fds.getD i none = s.fds.getD i none) (hok : StrOk K s' p (fdOf p) (f st)) :
    ∃ sh', DInv A m₀ K fds₀ s' (a.change p f) fdOf live sh' := by
  have hM : s'.heap.mem.Mapped p 2072 := by
    obtain ⟨d, e, h1, -⟩ := hok
    exact h1.mapped
  obtain ⟨sh', r'⟩ := I.reach.any (I.liveStream hp) hmb hm hM
  have hmem : ∀ q st', (q, st') ∈ (a.change p f).streams → (q = p ∧ st' = f st) ∨ (q ≠ p ∧ (q, st') ∈ a.streams) := by
    intro q st' h
    obtain ⟨⟨q', st''⟩, h1, h2⟩ := List.mem_map.1 h
    simp only at h2
    split at h2
    · rename_i e
      subst e
      injection h2 with h2 h3
      subst h2
      left
      exact ⟨rfl, by rw [← h3, I.one hA hp h1]⟩
    · rename_i e
      injection h2 with h2 h3
      subst h2 h3
      exact Or.inr ⟨e, h1⟩
  have hold : ∀ q st', (q, st') ∈ (a.change p f).streams → ∃ st'', (q, st'') ∈ a.streams := by
    intro q st' h
    rcases hmem q st' h with ⟨rfl, -⟩ | ⟨-, h⟩
    · exact ⟨_, hp⟩
    · exact ⟨_, h⟩
  refine ⟨sh', r', ?_, ?_, ?_, ?_, ?_, ?_⟩
  · have : (a.change p f).streams.map (fun x => (x.1, 2072)) = a.streams.map (fun x => (x.1, 2072)) := by
      unfold DState.change
      simp only [List.map_map]
      apply List.map_congr_left
      intro x _
      simp only [Function.comp]
      split
      · rename_i e; rw [e]
      · rfl
    rw [this]
    exact I.perm
  · intro q n i b hq hi hs
    rw [hm]
    · exact I.shadow q n i b hq hi hs
    · have := live_disj hA I.reach (I.liveStream hp) (I.liveBlock hq) (I.apart hA hp hq)
      omega
  · intro q st' h
    rcases hmem q st' h with ⟨rfl, rfl⟩ | ⟨hne, h⟩
    · exact hok
    · apply (I.strm q st' h).frame
      · intro i hi
        apply hm
        have := live_disj hA I.reach (I.liveStream hp) (I.liveStream h) (Ne.symm hne)
        omega
      · apply hfd
        intro e
        exact hne (I.inj _ _ _ _ h hp e)
  · intro q st1 q' st2 h1 h2 e
    obtain ⟨_, h1⟩ := hold _ _ h1
    obtain ⟨_, h2⟩ := hold _ _ h2
    exact I.inj _ _ _ _ h1 h2 e
  · intro i hi
    have hi' : ∀ q st', (q, st') ∈ a.streams → fdOf q ≠ i := by
      intro q st' h
      by_cases hq : q = p
      · subst hq
        exact hi q (f st) (List.mem_map.2 ⟨_, hp, by simp⟩)
      · exact hi q st' (List.mem_map.2 ⟨_, h, by simp [hq]⟩)
    rw [hfd i (Ne.symm (hi' p st hp))]
    exact I.table i hi'
  · intro q st' h
    obtain ⟨_, h⟩ := hold _ _ h
    exact I.fresh _ _ h

/-! ### The calls -/

/-- `readdir` on a stream, whether the kernel fails or not. -/
theorem readdir_any {D : DirK} (hK : GoodDir D) {d : DirSt} {c : Nat} (h : DirAt D d c) (hfit : ∀ r ∈ D.es, r.length ≤ d.buf.length) :
    ∃ d' o, readdir D d = .ok (d', o) ∧
      ((∃ q r, o = some q ∧ D.es[c]? = some r ∧ dirEntry d' q = some r ∧ DirAt D d' (c + 1)) ∨
        (o = none ∧ (D.es[c]? = none ∨ ∃ e, D.cut d.calls = .inl e) ∧ DirAt D d' c)) := by
  have hcp := h.1
  have hpl := h.2.1
  have hcase : (∃ k, D.cut d.calls = .inr k ∨ c < d.pos) ∨ (∃ e, D.cut d.calls = .inl e) ∧ d.pos = c := by
    cases hk : D.cut d.calls with
    | inr k => exact Or.inl ⟨k, Or.inl rfl⟩
    | inl e =>
      by_cases hc : c < d.pos
      · exact Or.inl ⟨0, Or.inr hc⟩
      · exact Or.inr ⟨⟨e, rfl⟩, by omega⟩
  rcases hcase with ⟨k, hk⟩ | ⟨⟨e, he⟩, hp⟩
  · obtain ⟨d', o, r1, r2, r3, r4, -, -⟩ := readdir_step hK h hfit hk
    refine ⟨d', o, r1, ?_⟩
    cases hes : D.es[c]? with
    | none =>
      have ho := r3.2 hes
      have hc : D.es.length ≤ c := List.getElem?_eq_none_iff.1 hes
      rw [show min (c + 1) D.es.length = c by omega] at r4
      exact Or.inr ⟨ho, Or.inl rfl, r4⟩
    | some r =>
      cases o with
      | none => rw [r3.1 rfl] at hes; cases hes
      | some q =>
        have hc : c < D.es.length := (List.getElem?_eq_some_iff.1 hes).1
        rw [show min (c + 1) D.es.length = c + 1 by omega] at r4
        rw [hes] at r2
        exact Or.inl ⟨q, r, rfl, rfl, r2, r4⟩
  · obtain ⟨d', r1, r2, -⟩ := C54_error hK h he hp
    exact ⟨d', none, r1, Or.inr ⟨rfl, Or.inr ⟨e, he⟩, r2⟩⟩

theorem dirEntry_holds {m : Mem} {b : Nat} {d : DirSt} {q : Nat} {r : List Byte} (h : m.Holds b d.buf) (he : dirEntry d q = some r) :
    m.Holds (b + q) r ∧ q + r.length ≤ d.buf.length := by
  unfold dirEntry at he
  cases hn : le16 d.buf (q + 16) with
  | none => rw [hn] at he; cases he
  | some n =>
    rw [hn, Option.map_some] at he
    injection he with he
    subst he
    have := le16_length hn
    exact ⟨holds_part h q n, by simp; omega⟩

theorem recAt_rec {m : Mem} {p : Nat} {r : List Byte} (h : m.Holds p r) (hr : le16 r 16 = some r.length) : recAt m p = r := by
  have := reclen_le16 (q := 0) h (by rw [Nat.zero_add]; exact hr)
  rw [Nat.add_zero] at this
  unfold recAt
  rw [this]
  dsimp only
  rw [loadBytes_holds h]

theorem step_readdir (hA : A.Ok m₀) (hK : DirsOk K) (I : DInv A m₀ K fds₀ s a fdOf live sh) {p : Nat} (hp : ∃ st, (p, st) ∈ a.streams) :
    ∃ s' ans sh', dStep A K s (.readdir p) = .ok (s', ans) ∧ DOk K (∃ e, K.cut s.calls = .inl e) a (.readdir p) ans ∧
      DInv A m₀ K fds₀ s' (dNext a (.readdir p) ans) fdOf live sh' := by
  obtain ⟨st, hp⟩ := hp
  obtain ⟨d, e, rep, he, hat, -⟩ := I.strm p st hp
  obtain ⟨good, hfit⟩ := hK _ _ he
  have hp0 := (live_mapped hA I.reach (I.liveStream hp)).2
  have hl := rep.len
  have rep0 : DirRep s p (fdOf p) st.name { d with errno := s.errno, calls := s.calls } :=
    ⟨rep.mapped, rep.fdw, rep.fdlt, rep.bp, rep.be, rep.buf, rep.len, rep.ent⟩
  have hat0 : DirAt (K.kern e) { d with errno := s.errno, calls := s.calls } st.pos := hat
  have hb : d.bufPos ≤ 2048 ∧ d.bufEnd ≤ 2048 := by
    obtain ⟨-, -, pre, rest, h3, h4, h5⟩ := hat
    have := congrArg List.length h3
    simp only [List.length_append] at this
    omega
  obtain ⟨d', o, r1, r2⟩ := readdir_any good hat0 (by intro r hr; show r.length ≤ d.buf.length; rw [hl]; exact hfit r hr)
  obtain ⟨s', q1, q2, q3, q4, q5, -, -, -⟩ := readdirMem_eq rep0 he rfl rfl hb.1 hb.2 hp0 r1
  unfold dStep
  dsimp only
  rw [q1, Res.ok_bind]
  rcases r2 with ⟨q, r, rfl, hes, hde, hat'⟩ | ⟨rfl, hes, hat'⟩
  · dsimp only
    rw [if_neg (by omega)]
    obtain ⟨hh, hlen⟩ := dirEntry_holds q2.buf hde
    have hrl := good.reclen _ _ hes
    rw [recAt_rec hh hrl]
    have hl' := q2.len
    obtain ⟨sh', I'⟩ := I.change hA (f := fun st => { st with pos := st.pos + 1, last := some (p + 24 + q, r) }) hp q3 q4 q5
      ⟨d', e, q2, he, hat', by
        intro q' r' h
        injection h with h
        injection h with h1 h2
        subst h1 h2
        exact ⟨hh, by omega, by omega⟩⟩
    refine ⟨s', _, sh', rfl, ?_, I'⟩
    intro st' hst'
    rw [I.one hA hp hst']
    exact ⟨e.1, e.2, he, Or.inl ⟨_, _, rfl, hes, by omega, by omega⟩⟩
  · dsimp only
    rw [if_pos rfl]
    obtain ⟨sh', I'⟩ := I.change hA (f := fun st => { st with last := none }) hp q3 q4 q5
      ⟨d', e, q2, he, hat', by intro q' r' h; cases h⟩
    refine ⟨s', _, sh', rfl, ?_, I'⟩
    intro st' hst'
    rw [I.one hA hp hst']
    exact ⟨e.1, e.2, he, Or.inr ⟨rfl, hes⟩⟩

theorem step_rewinddir (hA : A.Ok m₀) (hK : DirsOk K) (I : DInv A m₀ K fds₀ s a fdOf live sh) {p : Nat} (hp : ∃ st, (p, st) ∈ a.streams) :
    ∃ s' ans sh', dStep A K s (.rewinddir p) = .ok (s', ans) ∧ DOk K (∃ e, K.cut s.calls = .inl e) a (.rewinddir p) ans ∧
      DInv A m₀ K fds₀ s' (dNext a (.rewinddir p) ans) fdOf live sh' := by
  obtain ⟨st, hp⟩ := hp
  obtain ⟨d, e, rep, he, hat, hlast⟩ := I.strm p st hp
  obtain ⟨good, -⟩ := hK _ _ he
  have hl := rep.len
  have hls := lseekDir_eq good { tell := none, bufPos := 0, bufEnd := 0, buf := [], errno := s.errno, pos := d.pos, calls := s.calls } (i := 0)
    (Nat.zero_le _) (by rw [good.start]; omega) (by rw [good.start]; omega)
  rw [good.start] at hls
  unfold dStep rewinddirMem
  dsimp only
  rw [loadW_eq rep.fdw, Res.ok_bind, fd_toInt (by have := rep.fdlt; omega)]
  unfold lseekFd
  rw [fdGet_nat, rep.ent]
  dsimp only
  rw [he]
  dsimp only
  rw [hls]
  dsimp only
  rw [storeW_eq _ rep.be.mapped, Res.ok_bind, storeW_eq _ (rep.bp.mapped.write _ _), Res.ok_bind,
    storeBytes_mapped (by rw [List.length_replicate]; exact ((rep.mapped.mono (by omega)).write _ _).write _ _), Res.ok_bind]
  simp only [Res.pure_eq, Res.ok_bind, Int.toNat_natCast]
  have hmem : ∀ x, x < p ∨ p + 20 ≤ x → (((s.heap.mem.write (p + 16) (wordBytes 0#32)).write (p + 12) (wordBytes 0#32)).write p
      (List.replicate 8 0#8)) x = s.heap.mem x := by
    intro x hx
    rw [write_outside _ _ _ _ (by simp; omega), write_outside _ _ _ _ (by simp; omega), write_outside _ _ _ _ (by simp; omega)]
  obtain ⟨sh', I'⟩ := I.change hA (f := fun st => { st with pos := 0 }) (s' := DirsSt.setMem { s with
      fds := fdPut s.fds (fdOf p) (some (.dir st.name 0)) } (((s.heap.mem.write (p + 16) (wordBytes 0#32)).write (p + 12) (wordBytes 0#32)).write p
      (List.replicate 8 0#8))) hp (fun x hx => hmem x (by omega)) rfl (fun i hi => by
        show (fdPut _ _ _).getD _ _ = _
        rw [fdPut_getD, if_neg hi])
    ⟨{ d with bufPos := 0, bufEnd := 0, pos := 0 }, e, ⟨((rep.mapped.write _ _).write _ _).write _ _,
      ((rep.fdw.write (by right; omega)).write (by right; omega)).write (by left; simp), rep.fdlt,
      (hasW_write_same _ _ _).write (by left; simp), ((hasW_write_same _ _ _).write (by left; simp)).write (by left; simp),
      ((rep.buf.write (by left; simp)).write (by left; simp)).write (by left; simp), rep.len, by
        show (fdPut _ _ _).getD _ _ = _
        rw [fdPut_getD, if_pos rfl]⟩, he, dirAt_empty rfl (Nat.zero_le _) rfl rfl, by
      intro q r h
      obtain ⟨g1, g2, g3⟩ := hlast q r h
      refine ⟨?_, g2, g3⟩
      intro i hi
      show (write _ _ _) _ = _
      rw [hmem _ (by omega)]
      exact g1 i hi⟩
  exact ⟨_, _, sh', rfl, rfl, I'⟩

/-- What a heap operation keeps. -/
theorem DInv.heap (I : DInv A m₀ K fds₀ s a fdOf live sh) {s' : DirsSt} {a' : DState} {live' : List (Nat × Nat)} {sh' : Mem}
    (hr : Reach A m₀ ⟨s'.heap, live', sh'⟩) (hperm : live'.Perm (a'.streams.map (fun x => (x.1, 2072)) ++ a'.blocks))
    (hst : a'.streams = a.streams) (hfds : s'.fds = s.fds)
    (hsh : ∀ q n i b, (q, n) ∈ a'.blocks → i < n → a'.shadow (q + i) = some b → s'.heap.mem (q + i) = some b)
    (hm : ∀ p st i, (p, st) ∈ a.streams → i < 2072 → s'.heap.mem (p + i) = s.heap.mem (p + i)) :
    DInv A m₀ K fds₀ s' a' fdOf live' sh' := by
  refine ⟨hr, hperm, hsh, ?_, ?_, ?_, ?_⟩
  · intro p st h
    rw [hst] at h
    exact (I.strm p st h).frame (fun i hi => hm p st i h hi) (by rw [hfds])
  · rw [hst]; exact I.inj
  · rw [hst, hfds]; exact I.table
  · rw [hst]; exact I.fresh

theorem step_malloc (hA : A.Ok m₀) (I : DInv A m₀ K fds₀ s a fdOf live sh) {n : Nat} (hn : 1 ≤ n ∧ n ≤ 2147483640) :
    ∃ s' ans live' sh', dStep A K s (.malloc n) = .ok (s', ans) ∧ DOk K (∃ e, K.cut s.calls = .inl e) a (.malloc n) ans ∧
      DInv A m₀ K fds₀ s' (dNext a (.malloc n) ans) fdOf live' sh' := by
  obtain ⟨h, p, hm⟩ := (C17_history hA I.reach).1 n hn.1 hn.2
  have hk := C18_malloc hA I.reach hn.1 hn.2 hm
  unfold dStep
  simp only at hm ⊢
  rw [hm, Res.ok_bind]
  by_cases hp : p = 0
  · subst hp
    refine ⟨_, _, live, sh, rfl, ⟨0, rfl⟩, ?_⟩
    rw [show dNext a (.malloc n) (.ptr (h, 0).2) = a from rfl]
    refine I.heap (Reach.malloc_fail n I.reach hn.1 hn.2 hm) I.perm rfl rfl ?_ (fun p st i hp hi => hk.1 p 2072 i (I.liveStream hp) hi)
    intro q k i b hq hi hs
    exact (hk.1 q k i (I.liveBlock hq) hi).trans (I.shadow q k i b hq hi hs)
  · refine ⟨_, _, (p, n) :: live, forget sh p n, rfl, ⟨p, rfl⟩, ?_⟩
    · rw [show dNext a (.malloc n) (.ptr (h, p).2) = { a with blocks := (p, n) :: a.blocks, shadow := forget a.shadow p n } from if_neg hp]
      refine I.heap (Reach.malloc_ok n I.reach hn.1 hn.2 hm hp) ?_ rfl rfl ?_ (fun p st i hp hi => hk.1 p 2072 i (I.liveStream hp) hi)
      · exact (I.perm.cons _).trans List.perm_middle.symm
      · intro q k i b hq hi hs
        rcases List.mem_cons.1 hq with hq | hq
        · injection hq with hq1 hq2
          subst hq1 hq2
          simp [forget, hi] at hs
        · simp only [forget] at hs
          split at hs
          · cases hs
          · exact (hk.1 q k i (I.liveBlock hq) hi).trans (I.shadow q k i b hq hi hs)

theorem step_free (hA : A.Ok m₀) (I : DInv A m₀ K fds₀ s a fdOf live sh) {q : Nat} (hq : ∃ n, (q, n) ∈ a.blocks) :
    ∃ s' ans live' sh', dStep A K s (.free q) = .ok (s', ans) ∧ DOk K (∃ e, K.cut s.calls = .inl e) a (.free q) ans ∧
      DInv A m₀ K fds₀ s' (dNext a (.free q) ans) fdOf live' sh' := by
  obtain ⟨n, hq⟩ := hq
  obtain ⟨h, hf⟩ := (C17_history hA I.reach).2.1 q n (I.liveBlock hq)
  have hk := C18_free hA I.reach (I.liveBlock hq) hf
  unfold dStep
  simp only at hf ⊢
  rw [hf, Res.ok_bind]
  refine ⟨_, _, live.filter (fun b => b.1 ≠ q), sh, rfl, rfl, ?_⟩
  refine I.heap (Reach.free I.reach (I.liveBlock hq) hf) ?_ rfl rfl ?_ ?_
  · have := I.perm.filter (fun b => b.1 ≠ q)
    rw [List.filter_append] at this
    have e : (a.streams.map (fun x => (x.1, 2072))).filter (fun b => b.1 ≠ q) = a.streams.map (fun x => (x.1, 2072)) := by
      apply List.filter_eq_self.2
      intro x hx
      obtain ⟨⟨p, st⟩, h1, rfl⟩ := List.mem_map.1 hx
      simpa using I.apart hA h1 hq
    rw [e] at this
    exact this
  · intro q' k i b hq' hi hs
    obtain ⟨h1, h2⟩ := List.mem_filter.1 hq'
    exact (hk.1 q' k i (I.liveBlock h1) (by simpa using h2) hi).trans (I.shadow q' k i b h1 hi hs)
  · intro p st i hp hi
    exact hk.1 p 2072 i (I.liveStream hp) (I.apart hA hp hq) hi

theorem step_store (hA : A.Ok m₀) (I : DInv A m₀ K fds₀ s a fdOf live sh) {q i : Nat} {b : Byte} (hq : ∃ n, (q, n) ∈ a.blocks ∧ i < n) :
    ∃ s' ans live' sh', dStep A K s (.store q i b) = .ok (s', ans) ∧ DOk K (∃ e, K.cut s.calls = .inl e) a (.store q i b) ans ∧
      DInv A m₀ K fds₀ s' (dNext a (.store q i b) ans) fdOf live' sh' := by
  obtain ⟨n, hq, hi⟩ := hq
  obtain ⟨b0, hb0⟩ := (live_mapped hA I.reach (I.liveBlock hq)).1 i hi
  unfold dStep
  simp only at hb0 ⊢
  rw [store_some hb0, Res.ok_bind]
  refine ⟨_, _, live, sh.upd (q + i) b, rfl, rfl, ?_⟩
  · refine I.heap (Reach.store i b I.reach (I.liveBlock hq) hi) I.perm rfl rfl ?_ ?_
    · intro q' k j b' hq' hj hs
      show (Mem.upd _ _ _) _ = _
      by_cases he : q' + j = q + i
      · rw [he, upd_same]
        simp only [dNext] at hs
        rw [he, upd_same] at hs
        exact hs
      · rw [upd_ne he]
        simp only [dNext] at hs
        rw [upd_ne he] at hs
        exact I.shadow q' k j b' hq' hj hs
    · intro p st j hp hj
      show (Mem.upd _ _ _) _ = _
      rw [upd_ne]
      have := live_disj hA I.reach (I.liveStream hp) (I.liveBlock hq) (I.apart hA hp hq)
      omega

theorem step_closedir (hA : A.Ok m₀) (I : DInv A m₀ K fds₀ s a fdOf live sh) {p : Nat} (hp : ∃ st, (p, st) ∈ a.streams) :
    ∃ s' ans live' sh', dStep A K s (.closedir p) = .ok (s', ans) ∧ DOk K (∃ e, K.cut s.calls = .inl e) a (.closedir p) ans ∧
      DInv A m₀ K fds₀ s' (dNext a (.closedir p) ans) fdOf live' sh' := by
  obtain ⟨st, hp⟩ := hp
  obtain ⟨d, e, rep, he, hat, -⟩ := I.strm p st hp
  obtain ⟨h, hf⟩ := (C17_history hA I.reach).2.1 p 2072 (I.liveStream hp)
  have hk := C18_free hA I.reach (I.liveStream hp) hf
  unfold dStep closedir
  dsimp only
  rw [loadW_eq rep.fdw, Res.ok_bind, fd_toInt (by have := rep.fdlt; omega)]
  unfold closeFd
  rw [fdGet_nat, rep.ent]
  simp only at hf ⊢
  rw [hf, Res.ok_bind]
  simp only [Res.pure_eq, Res.ok_bind, Int.toNat_natCast]
  refine ⟨_, _, live.filter (fun b => b.1 ≠ p), sh, rfl, rfl, ?_⟩
  have hmem : ∀ q st', (q, st') ∈ (dNext a (.closedir p) (.int 0)).streams → q ≠ p ∧ (q, st') ∈ a.streams := by
    intro q st' h
    obtain ⟨h1, h2⟩ := List.mem_filter.1 h
    exact ⟨by simpa using h2, h1⟩
  refine ⟨Reach.free I.reach (I.liveStream hp) hf, ?_, ?_, ?_, ?_, ?_, ?_⟩
  · have := I.perm.filter (fun b => b.1 ≠ p)
    rw [List.filter_append, List.filter_map] at this
    have e : a.blocks.filter (fun b => b.1 ≠ p) = a.blocks := by
      apply List.filter_eq_self.2
      intro x hx
      simpa using (I.apart hA hp hx).symm
    rw [e] at this
    exact this
  · intro q k i b hq hi hs
    exact (hk.1 q k i (I.liveBlock hq) (I.apart hA hp hq).symm hi).trans (I.shadow q k i b hq hi hs)
  · intro q st' h
    obtain ⟨hne, h⟩ := hmem q st' h
    apply (I.strm q st' h).frame
    · intro i hi
      exact hk.1 q 2072 i (I.liveStream h) hne hi
    · show (fdPut _ _ _).getD _ _ = _
      rw [fdPut_getD, if_neg]
      intro e
      exact hne (I.inj _ _ _ _ h hp e)
  · intro q st1 q' st2 h1 h2 e
    exact I.inj _ _ _ _ (hmem _ _ h1).2 (hmem _ _ h2).2 e
  · intro i hi
    show (fdPut _ _ _).getD _ _ = _
    rw [fdPut_getD]
    split
    · rename_i e
      subst e
      exact (I.fresh p st hp).symm
    · rename_i hne
      apply I.table
      intro q st' h
      by_cases hq : q = p
      · subst hq; exact Ne.symm hne
      · exact hi q st' (List.mem_filter.2 ⟨h, by simpa using hq⟩)
  · intro q st' h
    exact I.fresh _ _ (hmem _ _ h).2

/-- `opendir`: a new stream, or nothing has happened. -/
theorem step_opendir (hA : A.Ok m₀) (I : DInv A m₀ K fds₀ s a fdOf live sh) (name : List Byte) :
    (∃ s' sh', opendir A K s name = .ok (s', 0) ∧ s'.heap.mbufsize = s.heap.mbufsize ∧ s'.fds = s.fds ∧ DInv A m₀ K fds₀ s' a fdOf live sh' ∧
      (s.heap.mbufsize < need 2072 + 64 ∨ (∃ e, K.refuse s.opens = some e ∧ s'.errno = e) ∨
        (K.refuse s.opens = none ∧ K.dir name = none ∧ s'.errno = 2) ∨
        (K.refuse s.opens = none ∧ K.dir name ≠ none ∧ 1024 ≤ fdLowest s.fds ∧ s'.errno = 24))) ∨
    (∃ s' p fdOf' live' sh', opendir A K s name = .ok (s', p) ∧ p ≠ 0 ∧ K.dir name ≠ none ∧ need 2072 + 64 ≤ s.heap.mbufsize ∧
      K.refuse s.opens = none ∧ fdLowest s.fds < 1024 ∧
      DInv A m₀ K fds₀ s' { a with streams := (p, ⟨name, 0, none⟩) :: a.streams } fdOf' live' sh') := by
  obtain ⟨h, p, hm⟩ := (C17_history hA I.reach).1 2072 (by omega) (by omega)
  have hk := C18_malloc hA I.reach (by omega) (by omega) hm
  have hex := C20_malloc_partial hA I.reach (n := 2072) (by omega) (by omega)
  have hm' : malloc A s.heap 2072 = .ok (h, p) := hm
  unfold opendir
  rw [hm', Res.ok_bind]
  dsimp only
  by_cases hp : p = 0
  · subst hp
    rw [if_pos rfl]
    left
    have hlt : s.heap.mbufsize < need 2072 + 64 := by
      refine Decidable.byContradiction fun hc => ?_
      obtain ⟨h', p', e1, e2, -⟩ := hex.2 (by simpa using hc)
      rw [hm] at e1
      injection e1 with e1
      injection e1 with _ e1
      exact e2 e1.symm
    have hh : h = s.heap := by
      have := hex.1 hlt
      rw [hm] at this
      injection this with this
      injection this
    subst hh
    exact ⟨s, sh, rfl, rfl, rfl, I, Or.inl hlt⟩
  · rw [if_neg hp]
    have hge : need 2072 + 64 ≤ s.heap.mbufsize := by
      refine Decidable.byContradiction fun hc => ?_
      have := hex.1 (by simpa using hc)
      rw [hm] at this
      injection this with this
      injection this with _ this
      exact hp this
    have r1 := Reach.malloc_ok 2072 I.reach (by omega) (by omega) hm hp
    have hfresh := (C17_fresh hA I.reach (by omega) (by omega) hm hp).2.2.2
    obtain ⟨bs, L⟩ := reach_linked hA I.reach
    obtain ⟨bs1, L1⟩ := reach_linked hA r1
    have hnew : p ∉ live.map (·.1) := by
      have := L1.nodup
      simp only [List.map_cons, List.nodup_cons] at this
      exact this.1
    have hnot : ∀ q st, (q, st) ∈ a.streams → q ≠ p := by
      intro q st hq e
      subst e
      exact hnew (List.mem_map.2 ⟨_, I.liveStream hq, rfl⟩)
    -- the kernel refuses
    have fail : ∀ (o : Nat) (er : Int), ∃ s' sh', (do
          let h ← free A h p
          pure (({ s with heap := h, errno := er, opens := o } : DirsSt), 0)) = Res.ok (s', 0) ∧ s'.heap.mbufsize = s.heap.mbufsize ∧ s'.fds = s.fds ∧
          DInv A m₀ K fds₀ s' a fdOf live sh' ∧ s'.errno = er := by
      intro o er
      have hf := malloc_free L.heap (n := 2072) (by omega) (by omega) (by show 64 ≤ s.heap.mbufsize - _; omega) hm
      have hk2 := C18_free hA r1 (p := p) (n := 2072) (by simp) hf
      have r2 := Reach.free r1 (p := p) (n := 2072) (by simp) hf
      have hfl : ((p, 2072) :: live).filter (fun b => b.1 ≠ p) = live := by
        rw [List.filter_cons_of_neg (by simp)]
        apply List.filter_eq_self.2
        intro x hx
        simp only [ne_eq, decide_not, Bool.not_eq_eq_eq_not, Bool.not_true, decide_eq_false_iff_not]
        intro e
        exact hnew (List.mem_map.2 ⟨x, hx, e⟩)
      rw [hf, Res.ok_bind]
      refine ⟨_, forget sh p 2072, rfl, rfl, rfl, ?_, rfl⟩
      · have r2' : Reach A m₀ ⟨⟨h.mem, s.heap.mbufsize⟩, live, forget sh p 2072⟩ := by
          have := r2
          simp only [hfl] at this
          exact this
        refine I.heap r2' I.perm rfl rfl ?_ ?_
        · intro q n i b hq hi hs
          exact (hk.1 q n i (I.liveBlock hq) hi).trans (I.shadow q n i b hq hi hs)
        · intro q st i hq hi
          exact hk.1 q 2072 i (I.liveStream hq) hi
    unfold opendirpMem openDir
    cases hrf : K.refuse s.opens with
    | some er =>
      dsimp only
      rw [if_pos (by omega), Res.ok_bind]
      dsimp only
      rw [if_pos rfl]
      left
      obtain ⟨s', sh', e1, e2, e3, e4, e5⟩ := fail (s.opens + 1) er
      exact ⟨s', sh', e1, e2, e3, e4, Or.inr (Or.inl ⟨_, rfl, e5⟩)⟩
    | none =>
      dsimp only
      cases hdir : K.dir name with
      | none =>
        dsimp only
        rw [if_pos (by omega), Res.ok_bind]
        dsimp only
        rw [if_pos rfl]
        left
        obtain ⟨s', sh', e1, e2, e3, e4, e5⟩ := fail (s.opens + 1) 2
        exact ⟨s', sh', e1, e2, e3, e4, Or.inr (Or.inr (Or.inl ⟨rfl, rfl, e5⟩))⟩
      | some e =>
        dsimp only
        by_cases hfd : fdLowest s.fds < 1024
        · rw [if_pos hfd]
          dsimp only
          rw [if_neg (by omega)]
          right
          have hM : h.mem.Mapped p 2072 := (live_mapped hA r1 (p := p) (n := 2072) (by simp)).1
          have hMk : ∀ k, k + 4 ≤ 2072 → h.mem.Mapped (p + k) 4 := by
            intro k hk i hi
            have := hM (k + i) (by omega)
            rwa [← Nat.add_assoc] at this
          rw [storeW_eq _ (hMk 8 (by omega)), Res.ok_bind, storeW_eq _ ((hMk 16 (by omega)).write _ _), Res.ok_bind,
            storeW_eq _ (((hMk 12 (by omega)).write _ _).write _ _), Res.ok_bind]
          simp only [Res.pure_eq, Res.ok_bind]
          rw [if_neg hp]
          generalize hfdv : fdLowest s.fds = fd at *
          have hfdn : s.fds.getD fd none = none := by rw [← hfdv]; exact fdLowest_none _
          have hmem : ∀ x, x < p ∨ p + 2072 ≤ x → (((h.mem.write (p + 8) (wordBytes (BitVec.ofInt 32 fd))).write (p + 16) (wordBytes 0#32)).write (p + 12)
              (wordBytes 0#32)) x = h.mem x := by
            intro x hx
            rw [write_outside _ _ _ _ (by simp; omega), write_outside _ _ _ _ (by simp; omega), write_outside _ _ _ _ (by simp; omega)]
          generalize hmm : (((h.mem.write (p + 8) (wordBytes (BitVec.ofInt 32 fd))).write (p + 16) (wordBytes 0#32)).write (p + 12)
              (wordBytes 0#32)) = m' at *
          have hM' : m'.Mapped p 2072 := by rw [← hmm]; exact ((hM.write _ _).write _ _).write _ _
          obtain ⟨sh', r2⟩ := r1.any (p := p) (n := 2072) (h' := ⟨m', h.mbufsize⟩) (by simp) rfl hmem hM'
          refine ⟨_, p, fun x => if x = p then fd else fdOf x, _, sh', rfl, hp, by simp, hge, by simp, hfd, r2, ?_, ?_, ?_, ?_, ?_, ?_⟩
          · exact I.perm.cons _
          · intro q n i b hq hi hs
            show m' _ = _
            have := hfresh q n (I.liveBlock hq)
            rw [hmem _ (by omega)]
            exact (hk.1 q n i (I.liveBlock hq) hi).trans (I.shadow q n i b hq hi hs)
          · intro q st hq
            rcases List.mem_cons.1 hq with hq | hq
            · injection hq with hq1 hq2
              subst hq1 hq2
              rw [if_pos rfl]
              obtain ⟨l, hl1, hl2⟩ := exists_holds (m := m') (p := q + 24) (n := 2048) (by
                intro i hi
                have := hM' (24 + i) (by omega)
                rwa [← Nat.add_assoc] at this)
              refine ⟨⟨none, 0, 0, l, 0, 0, 0⟩, e, ⟨hM', ?_, hfd, ?_, ?_, hl2, hl1, ?_⟩, hdir, dirAt_empty rfl (Nat.zero_le _) rfl rfl, by
                intro _ _ h; cases h⟩
              · show HasW m' _ _
                rw [← hmm, ← BitVec.ofInt_natCast]
                exact ((hasW_write_same _ _ _).write (by right; simp)).write (by right; simp)
              · show HasW m' _ _
                rw [← hmm]; exact hasW_write_same _ _ _
              · show HasW m' _ _
                rw [← hmm]; exact (hasW_write_same _ _ _).write (by left; simp)
              · show (fdPut _ _ _).getD _ _ = _
                rw [fdPut_getD, if_pos rfl]
            · have hne := hnot q st hq
              rw [if_neg hne]
              apply (I.strm q st hq).frame
              · intro i hi
                show m' _ = _
                have := hfresh q 2072 (I.liveStream hq)
                rw [hmem _ (by omega)]
                exact hk.1 q 2072 i (I.liveStream hq) hi
              · show (fdPut _ _ _).getD _ _ = _
                rw [fdPut_getD, if_neg]
                intro e'
                obtain ⟨d', _, rep', -⟩ := I.strm q st hq
                have := rep'.ent
                rw [e', hfdn] at this
                cases this
          · have hfdne : ∀ q st, (q, st) ∈ a.streams → fdOf q ≠ fd := by
              intro q st hq e'
              obtain ⟨d', _, rep', -⟩ := I.strm q st hq
              have := rep'.ent
              rw [e', hfdn] at this
              cases this
            intro q st q' st' h1 h2 he
            rcases List.mem_cons.1 h1 with h1 | h1
            · injection h1 with h1 _
              rcases List.mem_cons.1 h2 with h2 | h2
              · injection h2 with h2 _
                rw [h1, h2]
              · rw [if_pos h1, if_neg (hnot _ _ h2)] at he
                exact absurd he.symm (hfdne _ _ h2)
            · rw [if_neg (hnot _ _ h1)] at he
              rcases List.mem_cons.1 h2 with h2 | h2
              · injection h2 with h2 _
                rw [if_pos h2] at he
                exact absurd he (hfdne _ _ h1)
              · rw [if_neg (hnot _ _ h2)] at he
                exact I.inj _ _ _ _ h1 h2 he
          · intro i hi
            have h1 := hi p _ (List.mem_cons_self)
            rw [if_pos rfl] at h1
            show (fdPut _ _ _).getD _ _ = _
            rw [fdPut_getD, if_neg (Ne.symm h1)]
            apply I.table
            intro q st hq
            have := hi q st (List.mem_cons_of_mem _ hq)
            rwa [if_neg (hnot _ _ hq)] at this
          · intro q st hq
            rcases List.mem_cons.1 hq with hq | hq
            · injection hq with hq _
              rw [if_pos hq]
              rw [← I.table fd, hfdn]
              intro q' st' hq' e'
              obtain ⟨d', _, rep', -⟩ := I.strm q' st' hq'
              have := rep'.ent
              rw [e', hfdn] at this
              cases this
            · rw [if_neg (hnot _ _ hq)]
              exact I.fresh _ _ hq
        · rw [if_neg hfd]
          dsimp only
          rw [if_pos (by omega), Res.ok_bind]
          dsimp only
          rw [if_pos rfl]
          left
          obtain ⟨s', sh', e1, e2, e3, e4, e5⟩ := fail (s.opens + 1) 24
          exact ⟨s', sh', e1, e2, e3, e4, Or.inr (Or.inr (Or.inr ⟨rfl, by simp, by omega, e5⟩))⟩

/-- Every call of a correct program. -/
theorem dinv_step (hA : A.Ok m₀) (hK : DirsOk K) (I : DInv A m₀ K fds₀ s a fdOf live sh) {op : DOp} (hp : DPre a op) :
    ∃ s' ans fdOf' live' sh', dStep A K s op = .ok (s', ans) ∧ DOk K (∃ e, K.cut s.calls = .inl e) a op ans ∧
      DInv A m₀ K fds₀ s' (dNext a op ans) fdOf' live' sh' := by
  cases op with
  | opendir name =>
    rcases step_opendir hA I name with ⟨s', sh', e, -, -, I', -⟩ | ⟨s', p, fdOf', live', sh', e, hp, hd, -, -, -, I'⟩
    · refine ⟨s', .ptr 0, fdOf, live, sh', ?_, ⟨0, rfl, fun h => absurd rfl h⟩, I'⟩
      show (do let r ← opendir A K s name; pure (r.1, DAns.ptr r.2)) = _
      rw [e]; rfl
    · refine ⟨s', .ptr p, fdOf', live', sh', ?_, ⟨p, rfl, fun _ => hd⟩, ?_⟩
      · show (do let r ← opendir A K s name; pure (r.1, DAns.ptr r.2)) = _
        rw [e]; rfl
      · rw [show dNext a (.opendir name) (.ptr p) = { a with streams := (p, ⟨name, 0, none⟩) :: a.streams } from if_neg hp]
        exact I'
  | closedir p =>
    obtain ⟨s', ans, live', sh', h⟩ := step_closedir hA I hp
    exact ⟨s', ans, fdOf, live', sh', h⟩
  | readdir p =>
    obtain ⟨s', ans, sh', h⟩ := step_readdir hA hK I hp
    exact ⟨s', ans, fdOf, live, sh', h⟩
  | rewinddir p =>
    obtain ⟨s', ans, sh', h⟩ := step_rewinddir hA hK I hp
    exact ⟨s', ans, fdOf, live, sh', h⟩
  | malloc n =>
    obtain ⟨s', ans, live', sh', h⟩ := step_malloc hA I hp
    exact ⟨s', ans, fdOf, live', sh', h⟩
  | free q =>
    obtain ⟨s', ans, live', sh', h⟩ := step_free hA I hp
    exact ⟨s', ans, fdOf, live', sh', h⟩
  | store q i b =>
    obtain ⟨s', ans, live', sh', h⟩ := step_store hA I hp
    exact ⟨s', ans, fdOf, live', sh', h⟩

theorem dinv_reach (hA : A.Ok m₀) (hK : DirsOk K) (h : DReach A m₀ K fds₀ s a) : ∃ fdOf live sh, DInv A m₀ K fds₀ s a fdOf live sh := by
  induction h with
  | init errno =>
    refine ⟨fun _ => 0, [], fun _ => none, Reach.init, List.Perm.refl _, ?_, ?_, ?_, ?_, ?_⟩
    · intro q n i b h; cases h
    · intro q st h; cases h
    · intro q st q' st' h; cases h
    · intro i _; rfl
    · intro q st h; cases h
  | step op _ hp hs ih =>
    obtain ⟨fdOf, live, sh, I⟩ := ih
    obtain ⟨s', ans, fdOf', live', sh', e, -, I'⟩ := dinv_step hA hK I hp
    rw [hs] at e
    injection e with e
    injection e with e1 e2
    subst e1 e2
    exact ⟨fdOf', live', sh', I'⟩

end

end Minilib

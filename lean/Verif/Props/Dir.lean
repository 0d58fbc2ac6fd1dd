import Verif.Model.Dir
import Verif.Spec.Dir
/-
C54: directory streams.
-/

set_option autoImplicit false

namespace Minilib
open Spec

theorem le16_mid {r pre rest : List Byte} {q n : Nat} (h : le16 r q = some n) : le16 (pre ++ r ++ rest) (pre.length + q) = some n := by
  unfold le16 at h ⊢
  split at h
  · rename_i hl
    rw [if_pos (by simp; omega), ← h]
    simp only [List.getD_eq_getElem?_getD]
    have g : ∀ x, x < r.length → (pre ++ r ++ rest)[pre.length + x]? = r[x]? := by
      intro x hx
      rw [List.append_assoc, List.getElem?_append_right (by omega), show pre.length + x - pre.length = x by omega,
        List.getElem?_append_left hx]
    rw [g q (by omega), show pre.length + q + 1 = pre.length + (q + 1) by omega, g (q + 1) (by omega)]
  · cases h

theorem le64_mid {r pre rest : List Byte} {q : Nat} {n : Int} (h : le64 r q = some n) : le64 (pre ++ r ++ rest) (pre.length + q) = some n := by
  unfold le64 at h ⊢
  split at h
  · rename_i hl
    rw [if_pos (by simp; omega), ← h]
    rw [List.append_assoc, List.drop_append, List.drop_eq_nil_of_le (by omega), List.nil_append,
      show pre.length + q - pre.length = q by omega, List.drop_append_of_le_length (by omega),
      List.take_append_of_le_length (by simp; omega)]
  · cases h

theorem le16_length {r : List Byte} {q n : Nat} (h : le16 r q = some n) : q + 2 ≤ r.length := by
  unfold le16 at h
  split at h
  · assumption
  · cases h

/-- The record a pointer returned by `readdir` points to: as many bytes as it says. -/
def dirEntry (d : DirSt) (p : Nat) : Option (List Byte) :=
  (le16 d.buf (p + 16)).map (fun n => (d.buf.drop p).take n)

/-- The stream is at position `c`. -/
def DirAt (K : DirK) (d : DirSt) (c : Nat) : Prop :=
  c ≤ d.pos ∧ d.pos ≤ K.es.length ∧ ∃ pre rest, d.buf = pre ++ ((K.es.drop c).take (d.pos - c)).flatten ++ rest ∧
    pre.length = d.bufPos ∧ d.bufEnd = d.bufPos + ((K.es.drop c).take (d.pos - c)).flatten.length

theorem drop_cons {α : Type} {l : List α} {c : Nat} {r : α} (h : l[c]? = some r) : l.drop c = r :: l.drop (c + 1) := by
  obtain ⟨h1, h2⟩ := List.getElem?_eq_some_iff.1 h
  rw [List.drop_eq_getElem_cons h1, h2]

theorem takeFit_prefix : ∀ (size : Nat) (l : List (List Byte)), ∃ k, takeFit size l = l.take k ∧ k ≤ l.length ∧ (takeFit size l).flatten.length ≤ size
  | _, [] => ⟨0, rfl, by simp, by simp [takeFit]⟩
  | size, r :: rs => by
    rw [takeFit]
    by_cases h : r.length ≤ size
    · rw [if_pos h]
      obtain ⟨k, h1, h2, h3⟩ := takeFit_prefix (size - r.length) rs
      refine ⟨k + 1, by rw [h1]; rfl, by simpa using h2, ?_⟩
      rw [List.flatten_cons, List.length_append]
      omega
    · rw [if_neg h]
      exact ⟨0, rfl, by simp, by simp⟩

theorem takeFit_ne {size : Nat} {r : List Byte} {rs : List (List Byte)} (h : r.length ≤ size) : takeFit size (r :: rs) ≠ [] := by
  rw [takeFit, if_pos h]; simp

theorem flatten_len {K : DirK} (hK : GoodDir K) {c n : Nat} (h : ((K.es.drop c).take n).flatten.length = 0) : (K.es.drop c).take n = [] := by
  cases hl : (K.es.drop c).take n with
  | nil => rfl
  | cons r rs =>
    exfalso
    rw [hl, List.flatten_cons, List.length_append] at h
    have hr : r ∈ K.es := List.mem_of_mem_drop (List.mem_of_mem_take (by rw [hl]; simp))
    obtain ⟨i, hi, hir⟩ := List.mem_iff_getElem.1 hr
    have := le16_length (hK.reclen i r (List.getElem?_eq_some_iff.2 ⟨hi, hir⟩))
    omega

/-- The record at the front of the buffer is returned. -/
theorem readdirNext_eq {K : DirK} (hK : GoodDir K) {d : DirSt} {c : Nat} (h : DirAt K d c) (hne : c < d.pos) {r : List Byte}
    (hr : K.es[c]? = some r) :
    ∃ d', readdirNext d = .ok (d', some d.bufPos) ∧ dirEntry d' d.bufPos = some r ∧ DirAt K d' (c + 1) ∧ d'.tell = some (K.ck (c + 1)) ∧
      d'.buf = d.buf ∧ d'.calls = d.calls := by
  obtain ⟨h1, h2, pre, rest, h3, h4, h5⟩ := h
  have hd := drop_cons hr
  have e : (K.es.drop c).take (d.pos - c) = r :: (K.es.drop (c + 1)).take (d.pos - (c + 1)) := by
    rw [hd, show d.pos - c = (d.pos - (c + 1)) + 1 by omega, List.take_succ_cons]
  rw [e, List.flatten_cons] at h3 h5
  have hb : d.buf = pre ++ r ++ (((K.es.drop (c + 1)).take (d.pos - (c + 1))).flatten ++ rest) := by rw [h3]; simp
  have g1 := le16_mid (pre := pre) (rest := ((K.es.drop (c + 1)).take (d.pos - (c + 1))).flatten ++ rest) (hK.reclen c r hr)
  have g2 := le64_mid (pre := pre) (rest := ((K.es.drop (c + 1)).take (d.pos - (c + 1))).flatten ++ rest) (hK.doff c r hr)
  rw [← hb, h4] at g1 g2
  unfold readdirNext
  rw [g1, g2]
  refine ⟨_, rfl, ?_, ⟨by simp only; omega, h2, pre ++ r, rest, ?_, ?_, ?_⟩, rfl, rfl, rfl⟩
  · unfold dirEntry
    simp only
    rw [g1, Option.map_some, hb, List.append_assoc, ← h4, List.drop_left, List.take_left]
  · simp only; rw [hb]; simp
  · simp only [List.length_append]; omega
  · simp only; rw [h5, List.length_append]; omega

theorem getdents_eq {K : DirK} {d : DirSt} {k size : Nat} {r : List Byte} (hk : K.cut d.calls = .inr k) (hr : K.es[d.pos]? = some r)
    (hfit : r.length ≤ size) : ∃ n, 0 < n ∧ d.pos + n ≤ K.es.length ∧ ((K.es.drop d.pos).take n).flatten.length ≤ size ∧
      getdents K d size = ({ d with
        pos := d.pos + n, calls := d.calls + 1,
        buf := ((K.es.drop d.pos).take n).flatten ++ d.buf.drop ((K.es.drop d.pos).take n).flatten.length },
        ((((K.es.drop d.pos).take n).flatten.length : Nat) : Int)) := by
  have hn : d.pos < K.es.length := (List.getElem?_eq_some_iff.1 hr).1
  obtain ⟨j, hj1, hj2, hj3⟩ := takeFit_prefix size ((K.es.drop d.pos).take (k + 1))
  have hjne : takeFit size ((K.es.drop d.pos).take (k + 1)) ≠ [] := by
    rw [drop_cons hr, List.take_succ_cons]
    exact takeFit_ne hfit
  have hjl : (takeFit size ((K.es.drop d.pos).take (k + 1))).length = j := by
    rw [hj1, List.length_take]; omega
  have hjk : (takeFit size ((K.es.drop d.pos).take (k + 1))) = (K.es.drop d.pos).take j := by
    rw [hj1, List.take_take]
    simp only [List.length_take] at hj2
    rw [Nat.min_eq_left (by omega)]
  simp only [List.length_take, List.length_drop] at hj2
  refine ⟨j, ?_, by omega, by rw [← hjk]; exact hj3, ?_⟩
  · rcases Nat.eq_zero_or_pos j with hz | hz
    · exact absurd (List.eq_nil_of_length_eq_zero (hjl.trans hz)) hjne
    · exact hz
  · unfold getdents
    rw [hk]
    dsimp only
    rw [if_neg (by intro hh; exact hjne hh.1), hjl, hjk]

theorem getdents_end {K : DirK} {d : DirSt} {k size : Nat} (hk : K.cut d.calls = .inr k) (hp : d.pos = K.es.length) :
    getdents K d size = ({ d with calls := d.calls + 1 }, 0) := by
  unfold getdents
  rw [hk]
  dsimp only
  have : (K.es.drop d.pos).take (k + 1) = [] := by rw [List.drop_eq_nil_of_le (by omega)]; rfl
  rw [this]
  simp only [takeFit]
  rw [if_neg (by intro hh; omega)]
  simp

/-- What a call of `readdir` does when the kernel does not fail. -/
theorem readdir_step {K : DirK} (hK : GoodDir K) {d : DirSt} {c : Nat} (h : DirAt K d c)
    (hfit : ∀ r ∈ K.es, r.length ≤ d.buf.length) {k : Nat} (hk : K.cut d.calls = .inr k ∨ c < d.pos) :
    ∃ d' p, readdir K d = .ok (d', p) ∧ p.bind (dirEntry d') = K.es[c]? ∧ (p = none ↔ K.es[c]? = none) ∧
      DirAt K d' (min (c + 1) K.es.length) ∧ d'.buf.length = d.buf.length ∧
      (d.tell = some (K.ck c) ∨ c < K.es.length → d'.tell = some (K.ck (min (c + 1) K.es.length))) := by
  have h0 := h
  obtain ⟨h1, h2, pre, rest, h3, h4, h5⟩ := h
  unfold readdir
  by_cases hc : d.bufPos ≥ d.bufEnd
  · rw [if_pos hc]
    have hemp := flatten_len hK (c := c) (n := d.pos - c) (by omega)
    have hpc : d.pos = c := by
      rcases Nat.lt_or_ge c d.pos with hlt | hge
      · exfalso
        have hlen := congrArg List.length hemp
        simp only [List.length_take, List.length_drop, List.length_nil] at hlen
        omega
      · omega
    have hk : K.cut d.calls = .inr k := by
      rcases hk with hk | hk
      · exact hk
      · omega
    by_cases hn : c < K.es.length
    · obtain ⟨r, hr⟩ : ∃ r, K.es[c]? = some r := ⟨_, List.getElem?_eq_getElem hn⟩
      have hrm : r ∈ K.es := List.mem_of_getElem? hr
      obtain ⟨n, hn0, hn1, hn2, hn3⟩ := getdents_eq (size := d.buf.length) hk (by rw [hpc]; exact hr) (hfit r hrm)
      rw [hn3]
      have hflat : 0 < ((K.es.drop d.pos).take n).flatten.length := by
        rcases Nat.eq_zero_or_pos ((K.es.drop d.pos).take n).flatten.length with hz | hz
        · have := flatten_len hK hz
          have hlen := congrArg List.length this
          simp only [List.length_take, List.length_drop, List.length_nil] at hlen
          omega
        · exact hz
      dsimp only
      rw [if_neg (by omega)]
      rw [← hpc] at hr
      have hat : DirAt K { d with
          pos := d.pos + n, calls := d.calls + 1,
          buf := ((K.es.drop d.pos).take n).flatten ++ d.buf.drop ((K.es.drop d.pos).take n).flatten.length,
          bufEnd := ((((K.es.drop d.pos).take n).flatten.length : Nat) : Int).toNat, bufPos := 0 } d.pos := by
        refine ⟨by dsimp only; omega, by dsimp only; omega, [], d.buf.drop ((K.es.drop d.pos).take n).flatten.length, ?_, rfl, ?_⟩
        · dsimp only
          rw [show d.pos + n - d.pos = n by omega]; simp
        · dsimp only
          rw [show d.pos + n - d.pos = n by omega]; simp
      obtain ⟨d', r1, r2, r3, r4, r5, r6⟩ := readdirNext_eq hK hat (by dsimp only; omega) hr
      rw [hpc] at hr r3 r4
      refine ⟨d', some 0, r1, by rw [hr]; exact r2, by simp [hr], ?_, ?_, ?_⟩
      · rw [Nat.min_eq_left (by omega)]; exact r3
      · rw [r5]; simp only [List.length_append, List.length_drop]; omega
      · intro _; rw [Nat.min_eq_left (by omega)]; exact r4
    · have hnone : K.es[c]? = none := List.getElem?_eq_none (by omega)
      have hce : c = K.es.length := by omega
      rw [getdents_end hk (by omega)]
      dsimp only
      rw [if_pos (by decide), if_neg (by decide)]
      refine ⟨_, none, rfl, hnone.symm, by simp [hnone], ?_, rfl, ?_⟩
      · rw [Nat.min_eq_right (by omega), ← hce]
        exact h0
      · rintro (ht | ht)
        · rw [Nat.min_eq_right (by omega), ← hce]; exact ht
        · exact absurd ht hn
  · rw [if_neg hc]
    have hlt : c < d.pos := by
      rcases Nat.lt_or_ge c d.pos with hlt | hge
      · exact hlt
      · exfalso
        rw [show d.pos - c = 0 by omega] at h5
        simp at h5; omega
    have hn : c < K.es.length := by omega
    obtain ⟨r, hr⟩ : ∃ r, K.es[c]? = some r := ⟨_, List.getElem?_eq_getElem hn⟩
    obtain ⟨d', r1, r2, r3, r4, r5, r6⟩ := readdirNext_eq hK h0 hlt hr
    refine ⟨d', some d.bufPos, r1, by rw [hr]; exact r2, by simp [hr], ?_, by rw [r5], ?_⟩
    · rw [Nat.min_eq_left (by omega)]; exact r3
    · intro _; rw [Nat.min_eq_left (by omega)]; exact r4

/-- The calls of a program on a directory stream, and their answers; the records are looked at at once (the next call may
overwrite them). -/
def dirCalls (K : DirK) : DirSt → List DirOp → Res (List DirAns)
  | _, [] => .ok []
  | d, .read :: ops => do
    let r ← readdir K d
    let l ← dirCalls K r.1 ops
    pure (.entry (r.2.bind (dirEntry r.1)) :: l)
  | d, .tell :: ops => do
    let o ← telldir d
    let l ← dirCalls K d ops
    pure (.pos o :: l)
  | d, .seek i :: ops => do
    let l ← dirCalls K (seekdir K d (K.ck i)) ops
    pure (.nothing :: l)
  | d, .rewind :: ops => do
    let l ← dirCalls K (rewinddir K d) ops
    pure (.nothing :: l)

/-- All positions in the calls are positions of the directory, with numbers that fit into an `int`. -/
def _root_.Spec.SeekOk (K : DirK) (ops : List DirOp) : Prop :=
  ∀ op ∈ ops, ∀ i, op = .seek i → i ≤ K.es.length ∧ 0 ≤ K.ck i ∧ K.ck i < 2147483648

theorem dirAt_empty {K : DirK} {d : DirSt} {c : Nat} (hp : d.pos = c) (hc : c ≤ K.es.length) (h1 : d.bufPos = 0) (h2 : d.bufEnd = 0) : DirAt K d c := by
  refine ⟨by omega, by omega, [], d.buf, ?_, h1.symm, ?_⟩
  · rw [show d.pos - c = 0 by omega]; simp
  · rw [show d.pos - c = 0 by omega, h1, h2]; simp

theorem lseekDir_eq {K : DirK} (hK : GoodDir K) (d : DirSt) {i : Nat} (hi : i ≤ K.es.length) (h0 : 0 ≤ K.ck i) (h1 : K.ck i < 2147483648) :
    lseekDir K d (K.ck i) = ({ d with pos := i }, K.ck i) := by
  unfold lseekDir
  have hf : (List.range (K.es.length + 1)).find? (fun j => K.ck j = K.ck i) = some i := by
    rw [List.find?_range_eq_some]
    refine ⟨by simp, by simp; omega, ?_⟩
    intro j hj
    simp only [decide_eq_true_eq, Bool.not_eq_true', decide_eq_false_iff_not]
    intro e
    have := hK.inj j i (by omega) hi e
    omega
  rw [hf]
  have hr : (BitVec.ofInt 32 (K.ck i)).toInt = K.ck i := by
    rw [BitVec.toInt_ofInt]
    exact Int.bmod_eq_of_le (by omega) (by omega)
  simp only [hr]
  rw [if_neg (by omega)]

theorem dirCalls_eq {K : DirK} (hK : GoodDir K) (hcut : ∀ n, ∃ k, K.cut n = .inr k) : ∀ {ops : List DirOp} {d : DirSt} {c : Nat},
    DirAt K d c → d.tell = some (K.ck c) → (∀ r ∈ K.es, r.length ≤ d.buf.length) → SeekOk K ops →
    dirCalls K d ops = .ok (dirRun K.es K.ck c ops)
  | [], _, _, _, _, _, _ => rfl
  | op :: ops, d, c, h, ht, hfit, hs => by
    have hs' : SeekOk K ops := fun o ho => hs o (by simp [ho])
    cases op with
    | read =>
      obtain ⟨k, hk⟩ := hcut d.calls
      obtain ⟨d', p, r1, r2, _, r3, r4, r5⟩ := readdir_step hK h hfit (Or.inl hk)
      rw [dirCalls, r1]
      simp only [Res.ok_bind]
      rw [dirCalls_eq hK hcut r3 (r5 (Or.inl ht)) (by rw [r4]; exact hfit) hs', r2]
      rfl
    | tell =>
      rw [dirCalls, telldir, ht]
      simp only [Res.ok_bind]
      rw [dirCalls_eq hK hcut h ht hfit hs']
      rfl
    | seek i =>
      obtain ⟨g1, g2, g3⟩ := hs (.seek i) (by simp) i rfl
      rw [dirCalls, seekdir, lseekDir_eq hK d g1 g2 g3]
      dsimp only
      rw [dirCalls_eq hK hcut (d := { d with tell := some (K.ck i), bufPos := 0, bufEnd := 0, pos := i }) (c := i) (dirAt_empty rfl g1 rfl rfl) rfl hfit hs']
      rfl
    | rewind =>
      have e := lseekDir_eq hK d (i := 0) (Nat.zero_le _) (by rw [hK.start]; omega) (by rw [hK.start]; omega)
      rw [hK.start] at e
      rw [dirCalls, rewinddir, e]
      dsimp only
      rw [dirCalls_eq hK hcut (d := { d with tell := some 0, bufPos := 0, bufEnd := 0, pos := 0 }) (c := 0) (dirAt_empty rfl (Nat.zero_le _) rfl rfl) (by rw [hK.start]) hfit hs']
      rfl

/-- C54: however the kernel splits the directory into buffers, as long as it does not fail: from a new stream successive calls
of `readdir` give every record once and in order, and then NULL. -/
theorem C54_readdir {K : DirK} (hK : GoodDir K) (hcut : ∀ n, ∃ k, K.cut n = .inr k) (tell : Option Int) {buf : List Byte} (errno : Int)
    (hfit : ∀ r ∈ K.es, r.length ≤ buf.length) (extra : Nat) :
    dirCalls K (opendirp tell buf errno) (List.replicate (K.es.length + extra) .read) =
      .ok (K.es.map (fun r => .entry (some r)) ++ List.replicate extra (.entry none)) := by
  have ende : ∀ (n : Nat) (d : DirSt), DirAt K d K.es.length → (∀ r ∈ K.es, r.length ≤ d.buf.length) →
      dirCalls K d (List.replicate n .read) = .ok (List.replicate n (.entry none)) := by
    intro n
    induction n with
    | zero => intro _ _ _; rfl
    | succ n ih =>
      intro d h hf
      obtain ⟨k, hk⟩ := hcut d.calls
      obtain ⟨d', p, r1, r2, _, r3, r4, _⟩ := readdir_step hK h hf (Or.inl hk)
      rw [Nat.min_eq_right (by omega)] at r3
      rw [List.replicate_succ, dirCalls, r1]
      simp only [Res.ok_bind]
      rw [ih d' r3 (by rw [r4]; exact hf), r2, List.getElem?_eq_none (Nat.le_refl _)]
      rfl
  have key : ∀ (n : Nat) (d : DirSt) (c : Nat), c ≤ K.es.length → DirAt K d c → (∀ r ∈ K.es, r.length ≤ d.buf.length) → n + c = K.es.length →
      dirCalls K d (List.replicate (n + extra) .read) = .ok ((K.es.drop c).map (fun r => .entry (some r)) ++ List.replicate extra (.entry none)) := by
    intro n
    induction n with
    | zero =>
      intro d c hc h hf hn
      rw [List.drop_eq_nil_of_le (by omega), List.map_nil, List.nil_append, Nat.zero_add]
      exact ende extra d (by rw [← hn, Nat.zero_add]; exact h) hf
    | succ n ih =>
      intro d c hc h hf hn
      obtain ⟨k, hk⟩ := hcut d.calls
      obtain ⟨d', p, r1, r2, _, r3, r4, _⟩ := readdir_step hK h hf (Or.inl hk)
      have hlt : c < K.es.length := by omega
      rw [show n + 1 + extra = (n + extra) + 1 by omega, List.replicate_succ, dirCalls, r1]
      simp only [Res.ok_bind]
      rw [Nat.min_eq_left (by omega)] at r3
      rw [ih d' (c + 1) (by omega) r3 (by rw [r4]; exact hf) (by omega), r2]
      obtain ⟨r, hr⟩ : ∃ r, K.es[c]? = some r := ⟨_, List.getElem?_eq_getElem hlt⟩
      rw [hr, drop_cons hr]
      rfl
  exact key K.es.length (opendirp tell buf errno) 0 (Nat.zero_le _) (dirAt_empty rfl (Nat.zero_le _) rfl rfl) hfit (by omega)

/-- C54 (partial: positions have numbers below 2^31, and `telldir` is not called before the first other call): any sequence of
`readdir`, `telldir`, `seekdir` and `rewinddir` behaves as a list with a position. -/
theorem C54_seek_partial {K : DirK} (hK : GoodDir K) (hcut : ∀ n, ∃ k, K.cut n = .inr k) (tell : Option Int) {buf : List Byte} (errno : Int)
    (hfit : ∀ r ∈ K.es, r.length ≤ buf.length) {ops : List DirOp} (hs : SeekOk K ops) :
    dirCalls K (opendirp tell buf errno) (.rewind :: ops) = .ok (dirRun K.es K.ck 0 (.rewind :: ops)) := by
  have e := lseekDir_eq hK (opendirp tell buf errno) (i := 0) (Nat.zero_le _) (by rw [hK.start]; omega) (by rw [hK.start]; omega)
  rw [hK.start] at e
  rw [dirCalls, rewinddir, e]
  dsimp only
  rw [dirCalls_eq hK hcut (d := { opendirp tell buf errno with tell := some 0, bufPos := 0, bufEnd := 0, pos := 0 }) (c := 0) (dirAt_empty rfl (Nat.zero_le _) rfl rfl) (by rw [hK.start]) hfit hs]
  rfl

/-- C54: when the kernel fails, `readdir` returns NULL, and the stream is where it was: the next call goes on there. -/
theorem C54_error {K : DirK} (hK : GoodDir K) {d : DirSt} {c : Nat} (h : DirAt K d c) {e : Nat} (he : K.cut d.calls = .inl e) (hp : d.pos = c) :
    ∃ d', readdir K d = .ok (d', none) ∧ DirAt K d' c ∧ d'.pos = d.pos ∧ d'.buf = d.buf ∧ d'.tell = d.tell ∧ d'.calls = d.calls + 1 := by
  have h0 := h
  obtain ⟨h1, h2, pre, rest, h3, h4, h5⟩ := h
  rw [show d.pos - c = 0 by omega] at h5
  simp only [List.take_zero, List.flatten_nil, List.length_nil, Nat.add_zero] at h5
  unfold readdir getdents
  rw [if_pos (by omega), he]
  exact ⟨_, rfl, h0, rfl, rfl, rfl, rfl⟩

/-- C54: the error of the kernel should be in `errno` afterwards. -/
def C54_errno_full : Prop := ∀ (K : DirK) (d : DirSt) (e : Nat), d.bufPos ≥ d.bufEnd → K.cut d.calls = .inl e →
  ∃ d', readdir K d = .ok (d', none) ∧ d'.errno = e

/-- It is not: it is always EPERM, as the answer -1 of the system call is taken for an error number. -/
theorem C54_errno_refuted : ¬ C54_errno_full := by
  intro h
  obtain ⟨d', h1, h2⟩ := h ⟨[], fun _ => 0, fun _ => .inl 9⟩ (opendirp none [] 0) 9 (Nat.le_refl _) rfl
  have : readdir ⟨[], fun _ => 0, fun _ => .inl 9⟩ (opendirp none [] 0) = .ok (⟨none, 0, 0, [], 1, 0, 1⟩, none) := rfl
  rw [this] at h1
  simp only [Res.ok.injEq, Prod.mk.injEq, and_true] at h1
  rw [← h1] at h2
  exact absurd h2 (by decide)

/-- C54 in full, for sequences of calls on a new stream. -/
def C54_full : Prop := ∀ (K : DirK) (tell : Option Int) (buf : List Byte) (ops : List DirOp), GoodDir K → (∀ n, ∃ k, K.cut n = .inr k) →
  (∀ r ∈ K.es, r.length ≤ buf.length) → (∀ op ∈ ops, ∀ i, op = .seek i → i ≤ K.es.length ∧ 0 ≤ K.ck i) →
  dirCalls K (opendirp tell buf 0) ops = .ok (dirRun K.es K.ck 0 ops)

/-- C54 fails for `telldir` on a new stream: `opendirp` leaves the position uninitialised. -/
theorem C54_tell_refuted : ¬ C54_full := by
  intro h
  have := h ⟨[], fun n => n, fun _ => .inr 0⟩ none [] [.tell] ⟨by simp, by simp, rfl, by intro i j; simp; omega⟩ (fun _ => ⟨0, rfl⟩)
    (by simp) (by intro op hop i hi; simp only [List.mem_singleton] at hop; rw [hop] at hi; cases hi)
  cases this

/-- And `seekdir` to a position with a number beyond 2^31, as the file systems of Linux use them: `telldir` then does not
give this number, as the answer of `lseek` is an `int`. -/
theorem C54_seek_refuted {K : DirK} (hK : GoodDir K) (d : DirSt) {i : Nat} (hi : i ≤ K.es.length) (hbig : 2147483648 ≤ K.ck i)
    (hmax : K.ck i < 9223372036854775808) : telldir (seekdir K d (K.ck i)) ≠ .ok (K.ck i) := by
  have hf : (List.range (K.es.length + 1)).find? (fun j => K.ck j = K.ck i) = some i := by
    rw [List.find?_range_eq_some]
    refine ⟨by simp, by simp; omega, ?_⟩
    intro j hj
    simp only [decide_eq_true_eq, Bool.not_eq_true', decide_eq_false_iff_not]
    intro e
    have := hK.inj j i (by omega) hi e
    omega
  have hlt := BitVec.toInt_lt (x := BitVec.ofInt 32 (K.ck i))
  simp only [show (2 : Int) ^ (32 - 1) = 2147483648 by decide] at hlt
  unfold seekdir lseekDir
  rw [hf]
  simp only
  split
  · show Res.ok (-1) ≠ _
    intro e
    simp only [Res.ok.injEq] at e
    omega
  · show Res.ok _ ≠ _
    intro e
    simp only [Res.ok.injEq] at e
    omega

/-- A directory of two records, delivered one by one. -/
def dir2 : DirK :=
  ⟨[[1#8, 0#8, 0#8, 0#8, 0#8, 0#8, 0#8, 0#8, 5#8, 0#8, 0#8, 0#8, 0#8, 0#8, 0#8, 0#8, 20#8, 0#8, 97#8, 0#8],
    [2#8, 0#8, 0#8, 0#8, 0#8, 0#8, 0#8, 0#8, 9#8, 0#8, 0#8, 0#8, 0#8, 0#8, 0#8, 0#8, 21#8, 0#8, 98#8, 99#8, 0#8]],
   fun n => if n = 0 then 0 else if n = 1 then 5 else 9, fun _ => .inr 0⟩

theorem dir2_good : GoodDir dir2 where
  reclen := by
    intro i r h
    match i, h with
    | 0, h => cases h; decide
    | 1, h => cases h; decide
    | i + 2, h => simp [dir2] at h
  doff := by
    intro i r h
    match i, h with
    | 0, h => cases h; decide
    | 1, h => cases h; decide
    | i + 2, h => simp [dir2] at h
  start := rfl
  inj := by
    intro i j hi hj
    have hi : i ≤ 2 := hi
    have hj : j ≤ 2 := hj
    have : ∀ i ≤ 2, ∀ j ≤ 2, dir2.ck i = dir2.ck j → i = j := by decide
    exact this i hi j hj

example : dirCalls dir2 (opendirp none (List.replicate 32 0#8) 0) [.rewind, .read, .tell, .read, .read, .seek 1, .read, .tell] =
    .ok [.nothing, .entry dir2.es[0]?, .pos 5, .entry dir2.es[1]?, .entry none, .nothing, .entry dir2.es[1]?, .pos 9] :=
  C54_seek_partial dir2_good (fun _ => ⟨0, rfl⟩) none 0 (by decide) (by
    intro op hop i hi
    subst hi
    simp only [List.mem_cons, List.not_mem_nil, reduceCtorEq, or_false, false_or, DirOp.seek.injEq] at hop
    subst hop
    decide)

/-- C54: both entries, then the end, twice. -/
example : dirCalls dir2 (opendirp none (List.replicate 32 0#8) 0) [.read, .read, .read, .read] =
    .ok [.entry dir2.es[0]?, .entry dir2.es[1]?, .entry none, .entry none] :=
  C54_readdir dir2_good (fun _ => ⟨0, rfl⟩) none 0 (by decide) 2

end Minilib

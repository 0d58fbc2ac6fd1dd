import Verif.Model.Scandir
import Verif.Spec.Scandir
import Verif.Lemmas.Brk
import Verif.Lemmas.MemFn
import Verif.Lemmas.Group
import Verif.Props.Brk
import Verif.Props.Sort
/-
scandir: the buffer on the data segment, the compaction, the list.
-/

set_option autoImplicit false

namespace Minilib
open Mem

/-! ### writing into a held block -/

theorem breach_write {K : BrkK} {A : Arena} {h₀ : Heap} {s : BrkSt} {live : List (Nat × Nat)} {sh : Mem} {sv : List Nat}
    (r : BReach K A h₀ ⟨s, live, sh, sv⟩) {p n a : Nat} {l : List Byte} (hl : (p, n) ∈ live) (h1 : p ≤ a)
    (h2 : a + l.length ≤ p + n) :
    ∃ sh', BReach K A h₀ ⟨{ s with heap := ⟨s.heap.mem.write a l, s.heap.mbufsize⟩ }, live, sh', sv⟩ := by
  induction l generalizing s sh a with
  | nil => rw [write_nil]; exact ⟨sh, r⟩
  | cons b l ih =>
    rw [List.length_cons] at h2
    have r1 := BReach.store (a - p) b r hl (by omega)
    rw [show p + (a - p) = a by omega] at r1
    obtain ⟨sh', r2⟩ := ih r1 (a := a + 1) (by omega) (by omega)
    rw [write_cons]
    exact ⟨sh', r2⟩

/-- The bytes of a mapped range. -/
theorem mapped_holds {m : Mem} {p n : Nat} (h : m.Mapped p n) : ∃ l, l.length = n ∧ m.Holds p l := by
  induction n generalizing p with
  | zero => exact ⟨[], rfl, holds_nil m p⟩
  | succ n ih =>
    rw [mapped_succ] at h
    obtain ⟨⟨b, hb⟩, h⟩ := h
    obtain ⟨l, hl, hh⟩ := ih h
    exact ⟨b :: l, by simp [hl], holds_cons.2 ⟨hb, hh⟩⟩

/-- Any change of a held block is a sequence of stores. -/
theorem breach_edit {K : BrkK} {A : Arena} {h₀ : Heap} {s : BrkSt} {live : List (Nat × Nat)} {sh : Mem} {sv : List Nat}
    (r : BReach K A h₀ ⟨s, live, sh, sv⟩) {p n : Nat} {m : Mem} (hl : (p, n) ∈ live)
    (hout : ∀ x, (x < p ∨ p + n ≤ x) → m x = s.heap.mem x) (hm : m.Mapped p n) :
    ∃ sh', BReach K A h₀ ⟨{ s with heap := ⟨m, s.heap.mbufsize⟩ }, live, sh', sv⟩ := by
  obtain ⟨l, hln, hh⟩ := mapped_holds hm
  have e : s.heap.mem.write p l = m := by
    funext x
    by_cases hx : p ≤ x ∧ x < p + n
    · rw [show x = p + (x - p) by omega, write_inside _ _ _ _ (by omega), hh (x - p) (by omega)]
    · rw [write_outside _ _ _ _ (by omega), hout x (by omega)]
  rw [← e]
  exact breach_write r hl (Nat.le_refl p) (by omega)

/-! ### memcpy to a lower address, overlapping -/

theorem memcpyLoop_down {m : Mem} {d s a : Nat} {l : List Byte} (h : m.Holds s l) (hd : m.Mapped d l.length) (ho : d ≤ s)
    (ha : a ≤ l.length) : memcpyLoop (m.write d (l.take a)) d s (l.length : Int) a = .ok (m.write d l) := by
  induction hn : l.length - a generalizing a with
  | zero =>
    rw [memcpyLoop, if_neg (by omega), List.take_of_length_le (by omega)]; rfl
  | succ n ih =>
    have hx : (m.write d (l.take a)) (s + a) = some l[a] := by
      rw [write_outside _ _ _ _ (by simp only [List.length_take]; omega)]
      exact h a (by omega)
    obtain ⟨c, hc⟩ := (hd.write d (l.take a)) a (by omega)
    rw [memcpyLoop, if_pos (by omega), load_some hx, Res.ok_bind, store_some hc, Res.ok_bind]
    have e : (m.write d (l.take a)).upd (d + a) l[a] = m.write d (l.take (a + 1)) := by
      have := write_take_extend m d a a 1 l (by omega) (by omega)
      rw [show max a (a + 1) = a + 1 by omega] at this
      rw [← this, ← write_singleton]
      congr 1
      rw [List.drop_eq_getElem_cons (by omega), List.take_succ_cons, List.take_zero]
    rw [e]
    exact ih (by omega) (by omega)

theorem memcpy_down {m : Mem} {d s : Nat} {l : List Byte} (h : m.Holds s l) (hd : m.Mapped d l.length) (ho : d ≤ s) :
    memcpy m d s (l.length : Int) = .ok (m.write d l, d) := by
  have := memcpyLoop_down (a := 0) h hd ho (by omega)
  simp only [List.take_zero, write_nil] at this
  rw [memcpy, this]; rfl

/-! ### records -/

theorem reclen_eq {m : Mem} {a : Nat} {r : List Byte} (g : Spec.GoodRec r) (h : m.Holds a r) : reclen m a = .ok r.length := by
  have h19 := g.len
  have h2 : m.Holds (a + 16) [r[16]'(by omega), r[17]'(by omega)] := by
    refine holds_cons.2 ⟨h 16 (by omega), holds_cons.2 ⟨?_, holds_nil _ _⟩⟩
    exact h 17 (by omega)
  have h3 := Mem.loadBytes_holds h2
  rw [show [r[16]'(by omega), r[17]'(by omega)].length = 2 from rfl] at h3
  have h4 := g.reclen
  rw [List.getD_eq_getElem?_getD, List.getD_eq_getElem?_getD, List.getElem?_eq_getElem (by omega),
    List.getElem?_eq_getElem (by omega)] at h4
  simp only [Option.getD_some] at h4
  rw [reclen, h3]
  simp only [Res.ok_bind, Res.pure_eq, leNat]
  exact congrArg _ (by omega)

theorem recAt_eq {m : Mem} {a : Nat} {r : List Byte} (g : Spec.GoodRec r) (h : m.Holds a r) : recAt m a = r := by
  rw [recAt, reclen_eq g h]
  simp only
  rw [Mem.loadBytes_holds h]

/-- One batch: the selected records are appended to those kept. -/
theorem scanRecs_eq {sel : Option (List Byte → Bool)} {buf lim cnt : Nat} {m : Mem} {kept rs : List (List Byte)} {pos : Nat}
    (hg : ∀ r ∈ rs, Spec.GoodRec r) (hk : m.Holds buf kept.flatten) (hr : m.Holds (buf + pos) rs.flatten)
    (hc : kept.flatten.length ≤ pos) (hlim : lim = rs.flatten.length + pos) (hmax : lim < 2 ^ 31) (hm : m.Mapped buf lim) :
    ∃ m', scanRecs sel buf lim m ⟨pos, kept.flatten.length, kept.flatten.length, pos, cnt⟩ =
        .ok (m', ⟨lim, (kept ++ rs.filter (fun r => sel.all (fun f => f r))).flatten.length,
          (kept ++ rs.filter (fun r => sel.all (fun f => f r))).flatten.length, lim,
          cnt + (rs.filter (fun r => sel.all (fun f => f r))).length⟩) ∧
      m'.Holds buf (kept ++ rs.filter (fun r => sel.all (fun f => f r))).flatten ∧
      (∀ x, (x < buf ∨ buf + lim ≤ x) → m' x = m x) ∧ m'.Mapped buf lim := by
  induction rs generalizing m kept pos cnt with
  | nil =>
    simp only [List.flatten_nil, List.length_nil, Nat.zero_add] at hlim
    subst hlim
    refine ⟨m, ?_, by simpa using hk, fun _ _ => rfl, hm⟩
    rw [scanRecs, if_neg (by simp)]
    simp
  | cons r rs ih =>
    have gr := hg r (by simp)
    have h19 := gr.len
    rw [List.flatten_cons, holds_append] at hr
    rw [List.flatten_cons, List.length_append] at hlim
    rw [scanRecs, if_pos (by simp only; omega)]
    simp only
    rw [reclen_eq gr hr.1]
    simp only [Res.ok_bind]
    rw [Mem.loadBytes_holds hr.1]
    simp only [Res.ok_bind]
    rw [ckInt_ok (by omega) (by omega)]
    simp only [Res.ok_bind]
    -- the copy
    have hmw : m.Mapped (buf + kept.flatten.length) r.length := by
      intro i hi
      have := hm (kept.flatten.length + i) (by omega)
      rwa [← Nat.add_assoc] at this
    have hcopy : ∃ m1, (if kept.flatten.length < pos then do
          let c ← memcpy m (buf + kept.flatten.length) (buf + pos) (r.length : Int)
          pure c.1
        else pure m) = Res.ok m1 ∧ m1.Holds buf (kept.flatten ++ r) ∧
        (∀ x, (x < buf + kept.flatten.length ∨ buf + kept.flatten.length + r.length ≤ x) → m1 x = m x) ∧
        m1.Mapped buf lim := by
      by_cases hlt : kept.flatten.length < pos
      · rw [if_pos hlt, memcpy_down hr.1 hmw (by omega)]
        refine ⟨_, rfl, ?_, fun x hx => write_outside _ _ _ _ (by omega), hm.write _ _⟩
        rw [holds_append]
        exact ⟨hk.write (by omega), write_holds _ _ _⟩
      · rw [if_neg hlt]
        refine ⟨m, rfl, ?_, fun _ _ => rfl, hm⟩
        rw [holds_append]
        have : kept.flatten.length = pos := by omega
        exact ⟨hk, by rw [this]; exact hr.1⟩
    obtain ⟨m1, e1, hk1, ho1, hm1⟩ := hcopy
    rw [e1]
    simp only [Res.ok_bind]
    have hr1 : m1.Holds (buf + (pos + r.length)) rs.flatten := by
      intro i hi
      rw [ho1 _ (by omega), ← Nat.add_assoc]
      exact hr.2 i hi
    rw [holds_append] at hk1
    by_cases hs : sel.all (fun f => f r) = true
    · have ef : (kept ++ [r]).flatten = kept.flatten ++ r := by simp
      have hk2 : m1.Holds buf (kept ++ [r]).flatten := by rw [ef, holds_append]; exact hk1
      have el : (kept ++ [r]).flatten.length = kept.flatten.length + r.length := by rw [ef, List.length_append]
      obtain ⟨m', e2, h2, h3, h4⟩ := ih (cnt := cnt + 1) (fun x hx => hg x (by simp [hx])) hk2 hr1 (by omega) (by omega) hm1
      refine ⟨m', ?_, ?_, ?_, h4⟩
      · simp only [hs, if_true]
        rw [el] at e2
        rw [e2]
        simp only [List.filter_cons, hs, if_true, List.append_assoc, List.singleton_append, List.length_cons]
        congr 3
        omega
      · simpa [List.filter_cons, hs] using h2
      · intro x hx
        rw [h3 x hx, ho1 x (by omega)]
    · obtain ⟨m', e2, h2, h3, h4⟩ := ih (cnt := cnt) (fun x hx => hg x (by simp [hx])) hk1.1 hr1 (by omega) (by omega) hm1
      refine ⟨m', ?_, ?_, ?_, h4⟩
      · simp only [hs, Bool.false_eq_true, if_false]
        rw [e2]
        simp [List.filter_cons, hs]
      · simpa [List.filter_cons, hs] using h2
      · intro x hx
        rw [h3 x hx, ho1 x (by omega)]

/-- What `scandir` relies on between batches: the buffer `buf` is the last block of a history, of `pos + 4096` bytes, and
begins with the selected records. -/
structure ScanInv (K : BrkK) (A : Arena) (h₀ : Heap) (c : BClient) (s : BrkSt) (N : Nat) : Prop where
  reach : ∃ sh sv, BReach K A h₀ ⟨s, (c.st.kbrk + 4, N) :: c.live, sh, sv⟩ ∧ ∀ b ∈ c.saved, b ∈ sv
  kbrk : s.kbrk = c.st.kbrk + need N
  frame : ∀ x, x < c.st.kbrk → s.heap.mem x = c.st.heap.mem x

theorem ScanInv.mapped {K : BrkK} (hK : K.Ok) {A : Arena} {h₀ : Heap} {c : BClient} {s : BrkSt} {N : Nat}
    (I : ScanInv K A h₀ c s N) : s.heap.mem.Mapped (c.st.kbrk + 4) N := by
  obtain ⟨sh, sv, r, -⟩ := I.reach
  have h := ((C75_history_partial hK r).2.2.2.1 (c.st.kbrk + 4) N (by simp)).2.2.2
  exact fun i hi => Option.ne_none_iff_exists'.1 (h _ (by omega) (by omega))

/-- Changing the buffer. -/
theorem ScanInv.edit {K : BrkK} {A : Arena} {h₀ : Heap} {c : BClient} {s : BrkSt} {N : Nat} (I : ScanInv K A h₀ c s N)
    {m : Mem} (hout : ∀ x, (x < c.st.kbrk + 4 ∨ c.st.kbrk + 4 + N ≤ x) → m x = s.heap.mem x)
    (hm : m.Mapped (c.st.kbrk + 4) N) : ScanInv K A h₀ c { s with heap := ⟨m, s.heap.mbufsize⟩ } N := by
  obtain ⟨sh, sv, r, hsv⟩ := I.reach
  obtain ⟨sh', r'⟩ := breach_edit r (p := c.st.kbrk + 4) (n := N) (by simp) hout hm
  refine ⟨⟨sh', sv, r', hsv⟩, I.kbrk, fun x hx => ?_⟩
  rw [← I.frame x hx]
  exact hout x (by omega)

theorem live_low {K : BrkK} (hK : K.Ok) {A : Arena} {h₀ : Heap} {c : BClient} (r : BReach K A h₀ c) :
    c.live.filter (fun b => b.1 ≠ c.st.kbrk + 4) = c.live := by
  rw [List.filter_eq_self]
  rintro ⟨p, n⟩ hp
  have := ((C75_history_partial hK r).2.2.2.1 p n hp).2.2.1
  simp only [decide_eq_true_eq]
  omega

theorem saved_low {K : BrkK} (hK : K.Ok) {A : Arena} {h₀ : Heap} {c : BClient} (r : BReach K A h₀ c) {b : Nat}
    (hb : b ∈ c.saved) : b ≤ c.st.kbrk := by
  obtain ⟨bs, L⟩ := breach_linked hK r
  obtain ⟨xs, ys, rfl, e⟩ := L.saved b hb
  have := bchain_total L.inv.chain
  rw [btotal_append] at this
  omega

/-- Growing the buffer. -/
theorem ScanInv.grow {K : BrkK} (hK : K.Ok) {A : Arena} {h₀ : Heap} {c : BClient} (rc : BReach K A h₀ c) {s : BrkSt} {N N' : Nat}
    (I : ScanInv K A h₀ c s N) (hN : 1 ≤ N') (hN' : N' ≤ 268435448) (hg : ∀ k, c.st.kbrk + need N' ≤ K.limit k) :
    ∃ s', reallocB A K s (c.st.kbrk + 4) (N' : Int) = .ok (s', c.st.kbrk + 4) ∧ ScanInv K A h₀ c s' N' ∧
      ∀ x, x < N → x < N' → s'.heap.mem (c.st.kbrk + 4 + x) = s.heap.mem (c.st.kbrk + 4 + x) := by
  obtain ⟨sh, sv, r, hsv⟩ := I.reach
  have hk := I.kbrk
  have hn := need_pos N
  have hn' := need_pos N'
  have hend : c.st.kbrk + 4 + (need N - 4) = s.kbrk := by omega
  have hgr : K.Grants s (c.st.kbrk + 4 + (need N' - 4)) := fun k _ _ => by have := hg k; omega
  obtain ⟨s', e⟩ := (C75_history_partial hK r).2.2.1 (c.st.kbrk + 4) N N' (by simp) hend hN hN' hgr
  obtain ⟨-, hk', hin, hoth, hlow⟩ := (C75_frame_partial hK r).2.2 (c.st.kbrk + 4) N N' s' _ (by simp) hend hN hN' hgr e
  have r' := BReach.resize N' r (p := c.st.kbrk + 4) (n := N) (by simp) hend hN hN' hgr e
  have hf : ((c.st.kbrk + 4, N) :: c.live).filter (fun b => b.1 ≠ c.st.kbrk + 4) = c.live := by
    rw [List.filter_cons_of_neg (by simp)]; exact live_low hK rc
  simp only [hf] at r'
  refine ⟨s', e, ⟨⟨_, _, r', ?_⟩, by omega, fun x hx => ?_⟩, fun x h1 h2 => hin x h1 h2⟩
  · intro b hb
    have := saved_low hK rc hb
    simp only [List.mem_filter, decide_eq_true_eq]
    exact ⟨hsv b hb, by omega⟩
  · rw [← I.frame x hx]
    obtain ⟨bs, L⟩ := breach_linked hK r
    obtain ⟨xs, b, ys, rfl, hfr, hp, hsz⟩ := bLive_split (L.live (c.st.kbrk + 4) N (by simp))
    obtain ⟨bn, bf⟩ := b
    simp only at hfr hsz
    subst hfr
    have h8 := bchain_ge L.inv.chain
    have ht := bchain_total L.inv.chain
    rw [btotal_append] at ht
    have hb8 := h8 ⟨bn, false⟩ (by simp)
    simp only at hb8
    have hys : ys = [] := by
      cases ys with
      | nil => rfl
      | cons y ys =>
        have := h8 y (by simp)
        simp only [btotal] at ht
        omega
    subst hys
    obtain ⟨s2, e2, -, -, -, hm⟩ := reallocB_spec hK A L.inv hp hN hN' hgr
    rw [e2] at e
    obtain rfl : s2 = s' := by simpa using e
    exact hm x (by omega) (by omega) (by omega)

theorem filter_flatten_le (f : List Byte → Bool) (l : List (List Byte)) :
    (l.filter f).flatten.length ≤ l.flatten.length := by
  induction l with
  | nil => simp
  | cons r l ih =>
    rw [List.filter_cons]
    split <;> simp only [List.flatten_cons, List.length_append] <;> omega

/-- All batches. -/
theorem scanBatches_eq {W : Nat} (hW : scanBufsize = W) {K : BrkK} (hK : K.Ok) {A : Arena} {h₀ : Heap} {c : BClient} (rc : BReach K A h₀ c)
    {sel : Option (List Byte → Bool)} {fin cnt : Nat} {bs : List (List (List Byte))} {s : BrkSt} {kept : List (List Byte)}
    {pos : Nat} (hne : ∀ b ∈ bs, b ≠ []) (hg : ∀ b ∈ bs, ∀ r ∈ b, Spec.GoodRec r) (hb : ∀ b ∈ bs, b.flatten.length ≤ W)
    (I : ScanInv K A h₀ c s (pos + W)) (hk : s.heap.mem.Holds (c.st.kbrk + 4) kept.flatten)
    (hc : kept.flatten.length ≤ pos) (hmax : pos + bs.flatten.flatten.length + W ≤ 268435448)
    (hl : ∀ k, c.st.kbrk + (pos + bs.flatten.flatten.length + (W + 7)) ≤ K.limit k) :
    ∃ s', scanBatches A K sel fin s (c.st.kbrk + 4) ⟨pos, kept.flatten.length, kept.flatten.length, pos, cnt⟩ bs =
        .ok (s', c.st.kbrk + 4, ⟨pos + bs.flatten.flatten.length,
          (kept ++ bs.flatten.filter (fun r => sel.all (fun f => f r))).flatten.length,
          (kept ++ bs.flatten.filter (fun r => sel.all (fun f => f r))).flatten.length, pos + bs.flatten.flatten.length,
          cnt + (bs.flatten.filter (fun r => sel.all (fun f => f r))).length⟩, fin) ∧
      s'.heap.mem.Holds (c.st.kbrk + 4) (kept ++ bs.flatten.filter (fun r => sel.all (fun f => f r))).flatten ∧
      ScanInv K A h₀ c s' (pos + bs.flatten.flatten.length + W) := by
  induction bs generalizing s kept pos cnt with
  | nil => exact ⟨s, by simp [scanBatches], by simpa using hk, by simpa using I⟩
  | cons b bs ih =>
    have hb0 := hb b (by simp)
    have hbl : (b :: bs).flatten.flatten.length = b.flatten.length + bs.flatten.flatten.length := by simp
    have hl' : ∀ k, c.st.kbrk + (pos + b.flatten.length + bs.flatten.flatten.length + (W + 7)) ≤ K.limit k := by
      intro k
      have := hl k
      rw [hbl, ← Nat.add_assoc pos] at this
      exact this
    rw [hbl] at hmax hl
    have hbne : b.flatten ≠ [] := by
      intro h0
      obtain ⟨r, hr⟩ := List.exists_mem_of_ne_nil b (hne b (by simp))
      have h1 := (hg b (by simp) r hr).len
      have h2 : r = [] := by rw [List.flatten_eq_nil_iff] at h0; exact h0 r hr
      rw [h2] at h1
      simp at h1
    have hpos : 0 < b.flatten.length := List.length_pos_iff.2 hbne
    have hmp := I.mapped hK
    have hmw : s.heap.mem.Mapped (c.st.kbrk + 4 + pos) b.flatten.length := by
      intro i hi
      have := hmp (pos + i) (by omega)
      rwa [← Nat.add_assoc] at this
    have hk1 : (s.heap.mem.write (c.st.kbrk + 4 + pos) b.flatten).Holds (c.st.kbrk + 4) kept.flatten := hk.write (by omega)
    obtain ⟨m', e1, h1, h2, h3⟩ := scanRecs_eq (sel := sel) (buf := c.st.kbrk + 4) (lim := b.flatten.length + pos) (cnt := cnt)
      (hg b (by simp)) hk1 (write_holds _ _ _) hc rfl (by omega)
      ((hmp.write _ _).mono (by omega))
    have hout : ∀ x, (x < c.st.kbrk + 4 ∨ c.st.kbrk + 4 + (b.flatten.length + pos) ≤ x) → m' x = s.heap.mem x := by
      intro x hx
      rw [h2 x hx, write_outside _ _ _ _ (by omega)]
    have hm' : m'.Mapped (c.st.kbrk + 4) (pos + W) := by
      intro i hi
      by_cases h : i < b.flatten.length + pos
      · exact h3 i h
      · rw [hout _ (by omega)]; exact hmp i hi
    have I1 := I.edit (m := m') (fun x hx => hout x (by omega)) hm'
    have hnd := need_ge (n := b.flatten.length + pos + W)
    obtain ⟨s', e2, I2, hkeep⟩ := I1.grow hK rc (N' := b.flatten.length + pos + W) (by omega) (by omega)
      (fun k => by have := hl k; omega)
    have hlen : (kept ++ b.filter (fun r => sel.all (fun f => f r))).flatten.length ≤ pos + b.flatten.length := by
      rw [List.flatten_append, List.length_append]
      have : (b.filter (fun r => sel.all (fun f => f r))).flatten.length ≤ b.flatten.length :=
        filter_flatten_le _ _
      omega
    have hk2 : s'.heap.mem.Holds (c.st.kbrk + 4) (kept ++ b.filter (fun r => sel.all (fun f => f r))).flatten := by
      intro i hi
      rw [hkeep i (by omega) (by omega)]
      exact h1 i hi
    have I3 : ScanInv K A h₀ c s' (pos + b.flatten.length + W) := by
      rw [show pos + b.flatten.length + W = b.flatten.length + pos + W by omega]; exact I2
    obtain ⟨s'', e3, h4, I4⟩ := ih (cnt := cnt + (b.filter (fun r => sel.all (fun f => f r))).length)
      (fun x hx => hne x (by simp [hx])) (fun x hx => hg x (by simp [hx])) (fun x hx => hb x (by simp [hx])) I3 hk2 hlen
      (by omega) hl'
    refine ⟨s'', ?_, ?_, ?_⟩
    · rw [scanBatches, if_neg hbne]
      simp only
      rw [storeBytes_eq_write hmw]
      simp only [Res.ok_bind]
      rw [e1, Res.ok_bind]
      rw [hW]
      dsimp only
      rw [ckInt_ok (by omega) (by omega), Res.ok_bind, e2, Res.ok_bind, if_neg (by omega), Nat.add_comm b.flatten.length pos, e3]
      simp only [List.flatten_cons, List.filter_append, List.append_assoc, List.flatten_append, List.length_append,
        Nat.add_assoc]
    · simpa [List.filter_append] using h4
    · rw [hbl, ← Nat.add_assoc pos]; exact I4

/-! ### the list -/

/-- Addresses of the records from `a` on. -/
def recPtrs (a : Nat) : List (List Byte) → List Nat
  | [] => []
  | r :: rs => a :: recPtrs (a + r.length) rs

theorem length_recPtrs (a : Nat) (rs : List (List Byte)) : (recPtrs a rs).length = rs.length := by
  induction rs generalizing a with
  | nil => rfl
  | cons r rs ih => simp [recPtrs, ih]

theorem flat8_length (ps : List Nat) : ((ps.map (natBytes 8)).flatten).length = 8 * ps.length := by
  induction ps with
  | nil => rfl
  | cons p ps ih => simp only [List.map_cons, List.flatten_cons, List.length_append, ih, length_natBytes, List.length_cons]; omega

theorem scanList_eq {m : Mem} {de list : Nat} {rs : List (List Byte)} (hg : ∀ r ∈ rs, Spec.GoodRec r)
    (hr : m.Holds de rs.flatten) (hm : m.Mapped list (8 * rs.length)) (hd : de + rs.flatten.length ≤ list) :
    scanList m de list rs.length = .ok (m.write list ((recPtrs de rs).map (natBytes 8)).flatten) := by
  induction rs generalizing m de list with
  | nil => simp [scanList, recPtrs]
  | cons r rs ih =>
    rw [List.flatten_cons, holds_append] at hr
    rw [List.flatten_cons, List.length_append] at hd
    rw [List.length_cons] at hm ⊢
    have hm8 : m.Mapped list 8 := hm.mono (by omega)
    rw [scanList, storePtr_eq hm8]
    simp only [Res.ok_bind]
    have hr1 : (m.write list (natBytes 8 de)).Holds de r := hr.1.write (by rw [length_natBytes]; omega)
    rw [reclen_eq (hg r (by simp)) hr1]
    simp only [Res.ok_bind]
    rw [ih (fun x hx => hg x (by simp [hx])) (hr.2.write (by rw [length_natBytes]; omega))]
    · simp only [recPtrs, List.map_cons, List.flatten_cons]
      rw [write_append, length_natBytes]
    · refine Mapped.write ?_ _ _
      intro i hi
      have := hm (8 + i) (by omega)
      rwa [← Nat.add_assoc] at this
    · omega

end Minilib

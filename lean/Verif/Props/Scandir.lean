import Verif.Lemmas.Scandir
import Verif.Props.Str
/-
C76: scandir and alphasort.
-/

set_option autoImplicit false

namespace Minilib
open Mem

/-- Every listed pointer: the record it points to, in front of the end. -/
theorem recPtrs_mem {m : Mem} {a : Nat} {rs : List (List Byte)} (hg : ∀ r ∈ rs, Spec.GoodRec r) (h : m.Holds a rs.flatten) :
    (recPtrs a rs).map (recAt m) = rs ∧
    ∀ p ∈ recPtrs a rs, a ≤ p ∧ p + (recAt m p).length ≤ a + rs.flatten.length ∧ m.Holds p (recAt m p) := by
  induction rs generalizing a with
  | nil => simp [recPtrs]
  | cons r rs ih =>
    rw [List.flatten_cons, holds_append] at h
    obtain ⟨e, h1⟩ := ih (fun x hx => hg x (by simp [hx])) h.2
    have e0 := recAt_eq (hg r (by simp)) h.1
    refine ⟨by simp [recPtrs, e, e0], ?_⟩
    intro p hp
    rw [List.flatten_cons, List.length_append]
    simp only [recPtrs, List.mem_cons] at hp
    rcases hp with rfl | hp
    · rw [e0]; exact ⟨Nat.le_refl _, by omega, h.1⟩
    · obtain ⟨h2, h3, h4⟩ := h1 p hp
      exact ⟨by omega, by omega, h4⟩

/-- The list, sorted. -/
theorem scanSort_eq (cmp : Option (List Byte → List Byte → Int)) (hc : ∀ f, cmp = some f → Spec.TotalPre f) {m : Mem}
    {list : Nat} {ps : List Nat} (hp : ∀ p ∈ ps, p < 2 ^ 64)
    (hs : 8 * ps.length ≤ 2 ^ 60) :
    ∃ ps' : List Nat, ps'.Perm ps ∧
      Spec.ListedAs cmp (ps.map (recAt (m.write list (ps.map (natBytes 8)).flatten)))
        (ps'.map (recAt (m.write list (ps.map (natBytes 8)).flatten))) ∧
      (show Res Mem from match cmp with
        | none => pure (m.write list (ps.map (natBytes 8)).flatten)
        | some f => qsort (fun x y => f (recAt (m.write list (ps.map (natBytes 8)).flatten) (bytesNat x))
            (recAt (m.write list (ps.map (natBytes 8)).flatten) (bytesNat y)))
            (m.write list (ps.map (natBytes 8)).flatten) list ps.length 8) =
        .ok (m.write list (ps'.map (natBytes 8)).flatten) := by
  generalize hM : m.write list (ps.map (natBytes 8)).flatten = M
  have hinv : ∀ p ∈ ps, bytesNat (natBytes 8 p) = p := by
    intro p h
    rw [bytesNat_natBytes]
    exact Nat.mod_eq_of_lt (by have := hp p h; omega)
  cases cmp with
  | none => exact ⟨ps, .refl _, rfl, by simp only [hM]; rfl⟩
  | some f =>
    obtain ⟨ht1, ht2⟩ := hc f rfl
    obtain ⟨es, h1, h2, h3⟩ := C32_qsort (fun x y => f (recAt M (bytesNat x)) (recAt M (bytesNat y)))
      (fun x y => ht1 _ _) (fun x y z => ht2 _ _ _) M list 8 (ps.map (natBytes 8)) (by omega)
      ⟨fun e he => by
        rw [List.mem_map] at he
        obtain ⟨p, -, rfl⟩ := he
        exact length_natBytes 8 p, by rw [← hM]; exact write_holds _ _ _⟩ (by simpa using hs)
    have hes : (es.map bytesNat).map (natBytes 8) = es := by
      rw [List.map_map]
      conv => rhs; rw [← List.map_id es]
      refine List.map_congr_left fun e he => ?_
      have := h1.mem_iff.1 he
      rw [List.mem_map] at this
      obtain ⟨p, hpp, rfl⟩ := this
      simp only [Function.comp, hinv p hpp, id]
    have hperm : (es.map bytesNat).Perm ps := by
      have := h1.map bytesNat
      rw [List.map_map] at this
      rwa [List.map_congr_left (g := id) (fun p h => by simp only [Function.comp, hinv p h, id]), List.map_id] at this
    refine ⟨es.map bytesNat, hperm, ⟨hperm.map _, ?_⟩, ?_⟩
    · rw [List.pairwise_map, List.pairwise_map]; exact h2
    · rw [List.length_map] at h3
      simp only [h3]
      rw [hes, ← hM]
      congr 1
      have hl1 := flat8_length ps
      have hl2 : es.flatten.length = 8 * ps.length := by
        rw [← hes, flat8_length, hperm.length_eq]
      funext x
      by_cases hx : list ≤ x ∧ x < list + 8 * ps.length
      · rw [show x = list + (x - list) by omega, write_inside _ _ _ _ (by omega), write_inside _ _ _ _ (by omega)]
      · rw [write_outside _ _ _ _ (by omega), write_outside _ _ _ _ (by omega), write_outside _ _ _ _ (by omega)]

theorem holds_flat8 {m : Mem} {a : Nat} {ps : List Nat} (h : m.Holds a (ps.map (natBytes 8)).flatten)
    (hp : ∀ p ∈ ps, p < 2 ^ 64) {i : Nat} (hi : i < ps.length) : loadPtr m (a + 8 * i) = .ok (ps.getD i 0) := by
  induction ps generalizing a i with
  | nil => simp at hi
  | cons p ps ih =>
    rw [List.map_cons, List.flatten_cons, holds_append, length_natBytes] at h
    cases i with
    | zero => exact loadPtr_eq h.1 (by have := hp p (by simp); simp only [List.getD_cons_zero]; omega)
    | succ i =>
      have := ih h.2 (fun q hq => hp q (by simp [hq])) (i := i) (by simpa using hi)
      rw [show a + 8 * (i + 1) = a + 8 + 8 * i by omega, this, List.getD_cons_succ]

/-- The end of `scandir`. -/
theorem scanFinish_eq {K : BrkK} (hK : K.Ok) {A : Arena} {h₀ : Heap} {c : BClient} (rc : BReach K A h₀ c)
    (cmp : Option (List Byte → List Byte → Int)) (hc : ∀ f, cmp = some f → Spec.TotalPre f) {s : BrkSt} {pos : Nat}
    {rs : List (List Byte)} (hg : ∀ r ∈ rs, Spec.GoodRec r) (I : ScanInv K A h₀ c s (pos + scanBufsize))
    (hk : s.heap.mem.Holds (c.st.kbrk + 4) rs.flatten) (hp : rs.flatten.length ≤ pos)
    (hmax : pos + 8 * rs.length + scanBufsize ≤ 268435448)
    (hl : ∀ k, c.st.kbrk + (pos + 8 * rs.length + (scanBufsize + 7)) ≤ K.limit k) :
    ∃ (s' : BrkSt) (N : Nat) (ps : List Nat) (out : List (List Byte)), scanFinish A K cmp s (c.st.kbrk + 4) ⟨pos, rs.flatten.length, rs.flatten.length, pos, rs.length⟩ =
        .ok ⟨s', none, rs.length, some (c.st.kbrk + 4 + rs.flatten.length)⟩ ∧
      Spec.ListedAs cmp rs out ∧ out.length = rs.length ∧ ps.length = rs.length ∧
      (∀ i, i < rs.length → loadPtr s'.heap.mem (c.st.kbrk + 4 + rs.flatten.length + 8 * i) = .ok (ps.getD i 0) ∧
        s'.heap.mem.Holds (ps.getD i 0) (out.getD i []) ∧ c.st.kbrk + 4 ≤ ps.getD i 0 ∧
        ps.getD i 0 + (out.getD i []).length ≤ c.st.kbrk + 4 + rs.flatten.length) ∧
      ScanInv K A h₀ c s' N ∧ rs.flatten.length + 8 * rs.length ≤ N := by
  have hbound : ∀ k, K.limit k < 2 ^ 47 := hK.lim
  have hlim := hl 0
  have hb0 := hbound 0
  -- the buffer is large enough
  obtain ⟨s1, N, e1, I1, hk1, hN⟩ : ∃ s1 N, (if rs.length * 8 > scanBufsize + (pos - rs.flatten.length) then do
        let r ← reallocB A K s (c.st.kbrk + 4) (toInt32 ((rs.flatten.length + rs.length * 8 : Nat) : Int))
        pure r.1
      else pure s) = .ok s1 ∧ ScanInv K A h₀ c s1 N ∧ s1.heap.mem.Holds (c.st.kbrk + 4) rs.flatten ∧
      rs.flatten.length + 8 * rs.length ≤ N := by
    split
    · rename_i hgt
      have hnd := need_ge (n := rs.flatten.length + 8 * rs.length)
      obtain ⟨s', e, I', hkeep⟩ := I.grow hK rc (N' := rs.flatten.length + 8 * rs.length) (by omega) (by omega)
        (fun k => by have := hl k; omega)
      refine ⟨s', _, ?_, I', ?_, Nat.le_refl _⟩
      · have e32 : toInt32 ((rs.flatten.length + rs.length * 8 : Nat) : Int) = ((rs.flatten.length + 8 * rs.length : Nat) : Int) := by
          rw [Nat.mul_comm rs.length 8]
          unfold toInt32
          rw [Int.bmod_eq_of_le] <;> omega
        rw [e32, e]
        rfl
      · intro i hi
        rw [hkeep i (by omega) (by omega)]
        exact hk i hi
    · rename_i hgt
      exact ⟨s, _, rfl, I, hk, by omega⟩
  have hmap := I1.mapped hK
  have hml : s1.heap.mem.Mapped (c.st.kbrk + 4 + rs.flatten.length) (8 * rs.length) := by
    intro i hi
    have := hmap (rs.flatten.length + i) (by omega)
    rwa [← Nat.add_assoc] at this
  have hlp := length_recPtrs (c.st.kbrk + 4) rs
  obtain ⟨hr1, hr2⟩ := recPtrs_mem hg hk1
  have hkM : (s1.heap.mem.write (c.st.kbrk + 4 + rs.flatten.length) ((recPtrs (c.st.kbrk + 4) rs).map (natBytes 8)).flatten).Holds
      (c.st.kbrk + 4) rs.flatten := hk1.write (by omega)
  obtain ⟨hq1, hq2⟩ := recPtrs_mem hg hkM
  have hp64 : ∀ p ∈ recPtrs (c.st.kbrk + 4) rs, p < 2 ^ 64 := by
    intro p h
    have := (hr2 p h).2.1
    omega
  obtain ⟨ps, hperm, hlist, esort⟩ := scanSort_eq cmp hc (m := s1.heap.mem) (list := c.st.kbrk + 4 + rs.flatten.length) hp64 (by omega)
  rw [hlp] at esort
  rw [hq1] at hlist
  have hps : ps.length = rs.length := by rw [hperm.length_eq, hlp]
  have hf8 := flat8_length ps
  have hmem : ∀ i, i < rs.length → ps.getD i 0 ∈ recPtrs (c.st.kbrk + 4) rs := by
    intro i hi
    rw [List.getD_eq_getElem _ _ (by omega)]
    exact hperm.mem_iff.1 (List.getElem_mem _)
  refine ⟨{ s1 with heap := ⟨s1.heap.mem.write (c.st.kbrk + 4 + rs.flatten.length) (ps.map (natBytes 8)).flatten, s1.heap.mbufsize⟩ },
    N, ps, ps.map _, ?_, hlist, by rw [List.length_map, hps], hps, ?_, ?_, hN⟩
  · unfold scanFinish
    simp only
    rw [e1, Res.ok_bind, scanList_eq hg hk1 hml (Nat.le_refl _), Res.ok_bind]
    cases cmp <;> (simp only at esort ⊢; rw [esort]; rfl)
  · intro i hi
    obtain ⟨h1, h2, h3⟩ := hq2 _ (hmem i hi)
    have he : (ps.map (recAt (s1.heap.mem.write (c.st.kbrk + 4 + rs.flatten.length)
        ((recPtrs (c.st.kbrk + 4) rs).map (natBytes 8)).flatten))).getD i [] =
        recAt (s1.heap.mem.write (c.st.kbrk + 4 + rs.flatten.length)
        ((recPtrs (c.st.kbrk + 4) rs).map (natBytes 8)).flatten) (ps.getD i 0) := by
      rw [List.getD_eq_getElem _ _ (by rw [List.length_map]; omega), List.getElem_map, List.getD_eq_getElem _ _ (by omega)]
    rw [he]
    refine ⟨holds_flat8 (write_holds _ _ _) (fun p h => hp64 p (hperm.mem_iff.1 h)) (by omega), ?_, h1, h2⟩
    intro j hj
    have := h3 j hj
    rw [write_outside _ _ _ _ (by omega)] at this
    rw [← this]
    exact write_outside _ _ _ _ (by omega)
  · refine I1.edit (fun x hx => write_outside _ _ _ _ (by omega)) (hmap.write _ _)

/-- C76: for every directory the kernel delivers without error, every selection, and every comparison that is a total
preorder (or none), `scandir` called at any point of a history of the data segment returns the number of the selected
entries; `*listing` points to that many pointers, to the records of exactly the selected entries, in the order of the
comparison (without one: in that of the directory).  List and records lie in one new block, which the program holds
afterwards; the memory in front of it is unchanged.  Partial: errors of the kernel and an exhausted data segment are not
covered. -/
theorem C76_scandir_partial {K : BrkK} (hK : K.Ok) {A : Arena} {h₀ : Heap} {c : BClient} (rc : BReach K A h₀ c)
    (bs : List (List (List Byte))) (hne : ∀ b ∈ bs, b ≠ []) (hg : ∀ b ∈ bs, ∀ r ∈ b, Spec.GoodRec r)
    (hb : ∀ b ∈ bs, b.flatten.length ≤ 4096) (sel : Option (List Byte → Bool))
    (cmp : Option (List Byte → List Byte → Int)) (hc : ∀ f, cmp = some f → Spec.TotalPre f)
    (hmax : bs.flatten.flatten.length + 8 * bs.flatten.length ≤ 268000000)
    (hl : ∀ k, c.st.kbrk + (bs.flatten.flatten.length + 8 * bs.flatten.length + 4103) ≤ K.limit k) :
    ∃ (s : BrkSt) (list N : Nat) (ps : List Nat) (out : List (List Byte)),
      scandir A K ⟨none, bs, 0⟩ sel cmp c.st = .ok ⟨s, none, out.length, some list⟩ ∧
      Spec.ListedAs cmp (bs.flatten.filter (fun r => sel.all (fun f => f r))) out ∧ ps.length = out.length ∧
      (∀ i, i < out.length → loadPtr s.heap.mem (list + 8 * i) = .ok (ps.getD i 0) ∧
        s.heap.mem.Holds (ps.getD i 0) (out.getD i []) ∧ c.st.kbrk + 4 ≤ ps.getD i 0 ∧
        ps.getD i 0 + (out.getD i []).length ≤ list) ∧
      c.st.kbrk + 4 ≤ list ∧ list + 8 * out.length ≤ c.st.kbrk + 4 + N ∧
      (∃ sh sv, BReach K A h₀ ⟨s, (c.st.kbrk + 4, N) :: c.live, sh, sv⟩ ∧ ∀ b ∈ c.saved, b ∈ sv) ∧
      ∀ x, x < c.st.kbrk → s.heap.mem x = c.st.heap.mem x := by
  obtain ⟨bl, L⟩ := breach_linked hK rc
  have hw : scanBufsize = 4096 := rfl
  generalize hWd : scanBufsize = W at hw
  have hnd := need_ge (n := W)
  have hgr : K.Grants c.st (c.st.kbrk + need W) := fun k _ _ => by have := hl k; omega
  obtain ⟨s0, e0, -, hk0, -, hfr⟩ := mallocBrk_spec hK L.inv (n := W) (by omega) (by omega) hgr
  have r0 := BReach.alloc W rc (by omega) (by omega) hgr e0
  have I0 : ScanInv K A h₀ c s0 (0 + W) := by
    rw [Nat.zero_add]
    exact ⟨⟨_, _, r0, fun b hb => hb⟩, hk0, hfr⟩
  obtain ⟨s1, e1, h1, I1⟩ := scanBatches_eq hWd hK rc (sel := sel) (fin := 0) (cnt := 0) (kept := []) (pos := 0) hne hg
    (fun b hbb => by have := hb b hbb; omega) I0 (by simpa using holds_nil _ _) (by simp) (by omega)
    (fun k => by have := hl k; omega)
  rw [List.nil_append] at h1 e1
  rw [List.flatten_nil, List.length_nil] at e1
  rw [Nat.zero_add] at I1 e1
  have hrs : ∀ r ∈ bs.flatten.filter (fun r => sel.all (fun f => f r)), Spec.GoodRec r := by
    intro r hr
    rw [List.mem_filter, List.mem_flatten] at hr
    obtain ⟨⟨b, hbb, hr⟩, -⟩ := hr
    exact hg b hbb r hr
  have hle1 := filter_flatten_le (fun r => sel.all (fun f => f r)) bs.flatten
  have hle2 := List.length_filter_le (fun r => sel.all (fun f => f r)) bs.flatten
  subst hWd
  obtain ⟨s2, N, ps, out, e2, h2, h3, h4, h5, I2, h6⟩ := scanFinish_eq hK rc cmp hc hrs I1 h1 hle1 (by omega)
    (fun k => by have := hl k; omega)
  refine ⟨s2, c.st.kbrk + 4 + (bs.flatten.filter (fun r => sel.all (fun f => f r))).flatten.length, N, ps, out, ?_, h2, by omega, ?_, ?_, ?_, I2.reach, I2.frame⟩
  rotate_left 1
  · intro i hi
    exact h5 i (by omega)
  · omega
  · omega
  · unfold scandir
    simp only
    rw [e0, Res.ok_bind]
    simp only
    rw [if_neg (by omega), e1, Res.ok_bind]
    simp only
    rw [if_neg (by omega), if_neg (by omega)]
    rw [Nat.zero_add, e2, h3]

/-- The name in a record is a string at offset 18. -/
theorem recName_isStr {m : Mem} {a : Nat} {r : List Byte} (g : Spec.GoodRec r) (h : m.Holds a r) :
    m.IsStr (a + 18) (Spec.recName r) := by
  have h18 : m.Holds (a + 18) (r.drop 18) := by
    have hl := g.len
    rw [← List.take_append_drop 18 r, holds_append, List.length_take, Nat.min_eq_left (by omega)] at h
    exact h.2
  have hn := g.nul
  unfold Spec.recName
  generalize r.drop 18 = l at *
  generalize a + 18 = p at *
  clear h g
  induction l generalizing p with
  | nil => simp at hn
  | cons b l ih =>
    rw [holds_cons] at h18
    by_cases hb : b = 0#8
    · subst hb
      refine ⟨by simpa using holds_nil m p, by simpa using h18.1, by simp⟩
    · have hn' : 0#8 ∈ l := by
        rcases List.mem_cons.1 hn with h | h
        · exact absurd h.symm hb
        · exact h
      obtain ⟨i1, i2, i3⟩ := ih hn' (p + 1) h18.2
      rw [List.takeWhile_cons_of_pos (by simpa using hb)]
      refine ⟨holds_cons.2 ⟨h18.1, i1⟩, ?_, ?_⟩
      · rw [List.length_cons, show p + ((List.takeWhile (fun b => b != 0#8) l).length + 1) =
          p + 1 + (List.takeWhile (fun b => b != 0#8) l).length by omega]
        exact i2
      · intro x hx
        rcases List.mem_cons.1 hx with rfl | hx
        · exact hb
        · exact i3 x hx

/-- C76: the sign of `alphasort` is the order of the names. -/
theorem C76_alphasort {m : Mem} {d e a b : Nat} {x y : List Byte} (hd : loadPtr m d = .ok a) (he : loadPtr m e = .ok b)
    (gx : Spec.GoodRec x) (gy : Spec.GoodRec y) (hx : m.Holds a x) (hy : m.Holds b y) :
    ∃ v, alphasort m d e = .ok v ∧ (v < 0 ↔ Spec.recName x < Spec.recName y) ∧
      (v = 0 ↔ Spec.recName x = Spec.recName y) ∧ (0 < v ↔ Spec.recName y < Spec.recName x) := by
  have hlen : (Spec.recName x).length < 2147483647 := by
    have h1 : (Spec.recName x).length ≤ (x.drop 18).length := (List.takeWhile_sublist _).length_le
    have h2 := gx.reclen
    have := (x.getD 16 0#8).isLt
    have := (x.getD 17 0#8).isLt
    rw [List.length_drop] at h1
    omega
  obtain ⟨v, e1, h⟩ := C06_strcmp (recName_isStr gx hx) (recName_isStr gy hy) hlen
  refine ⟨v, ?_, h⟩
  simp only [alphasort, hd, he, Res.ok_bind]
  exact e1

/-- The comparison of the names: `alphasort` on the records themselves. -/
def byName (x y : List Byte) : Int := if Spec.recName x < Spec.recName y then -1 else if Spec.recName y < Spec.recName x then 1 else 0

/-- Two records, "b" and "a". -/
def exRecB : List Byte := List.replicate 16 7#8 ++ [24#8, 0#8, 98#8, 0#8, 1#8, 2#8, 3#8, 4#8]
def exRecA : List Byte := List.replicate 16 9#8 ++ [24#8, 0#8, 97#8, 0#8, 1#8, 2#8, 3#8, 4#8]

theorem byName_pre : Spec.TotalPre byName := by
  have ht : ∀ a b : List Byte, a < b ∨ a = b ∨ b < a := by
    intro a b
    rcases List.le_total a b with h | h
    · rcases List.le_iff_lt_or_eq.1 h with h | h
      · exact .inl h
      · exact .inr (.inl h)
    · rcases List.le_iff_lt_or_eq.1 h with h | h
      · exact .inr (.inr h)
      · exact .inr (.inl h.symm)
  have hle : ∀ x y, byName x y ≤ 0 ↔ ¬ Spec.recName y < Spec.recName x := by
    intro x y
    unfold byName
    split
    · rename_i h
      exact ⟨fun _ => List.lt_asymm h, fun _ => by omega⟩
    · split <;> rename_i h <;> simp [h]
  refine ⟨fun x y => ?_, fun x y z => ?_⟩
  · rw [hle, hle]
    rcases ht (Spec.recName x) (Spec.recName y) with h | h | h
    · exact .inl (List.lt_asymm h)
    · rw [h]; exact .inl (List.lt_irrefl _)
    · exact .inr (List.lt_asymm h)
  · rw [hle, hle, hle]
    intro h1 h2
    exact List.not_lt.2 (List.le_trans (List.not_lt.1 h1) (List.not_lt.1 h2))

/-- Two batches of one record; the second one precedes the first. -/
example : ∃ (s : BrkSt) (list : Nat) (ps : List Nat),
    scandir exArena exBrkK ⟨none, [[exRecB], [exRecA]], 0⟩ none (some byName) (BrkSt.init exBrkK ⟨exHeapMem, 252⟩) =
      .ok ⟨s, none, 2, some list⟩ ∧ ps.length = 2 := by
  obtain ⟨s, list, N, ps, out, h, h1, h2, -⟩ := C76_scandir_partial exBrkK_ok (BReach.init (A := exArena) (h₀ := ⟨exHeapMem, 252⟩))
    [[exRecB], [exRecA]] (by simp) (by
      intro b hb r hr
      have : r = exRecB ∨ r = exRecA := by
        simp only [List.mem_cons, List.not_mem_nil, or_false] at hb
        rcases hb with rfl | rfl
        · exact .inl (by simpa using hr)
        · exact .inr (by simpa using hr)
      rcases this with rfl | rfl <;> exact ⟨by decide, by decide, by decide⟩) (by decide)
    none (some byName) (fun f hf => by cases hf; exact byName_pre) (by decide) (fun _ => by simp only [exBrkK]; decide)
  have hl : out.length = 2 := h1.1.length_eq
  rw [hl] at h h2
  exact ⟨s, list, ps, h, h2⟩

/-- Errors, as documented: the negative errno is returned. -/
def C76_error_full : Prop := ∀ (A : Arena) (K : BrkK) (D : ScanK) (sel : Option (List Byte → Bool))
  (cmp : Option (List Byte → List Byte → Int)) (s : BrkSt) (e : Nat), D.openErr = some e →
  ∃ r, scandir A K D sel cmp s = .ok r ∧ r.ret = -(e : Int) ∧ r.errno = some (e : Int)

/-- C76 fails for errors: for every error of `open`, -1 is returned and errno is 1 (EPERM), whatever the error was; ENOENT
(2) is reported as "operation not permitted". -/
theorem C76_error_refuted : ¬ C76_error_full ∧
    ∀ (A : Arena) (K : BrkK) (D : ScanK) (sel : Option (List Byte → Bool)) (cmp : Option (List Byte → List Byte → Int))
      (s : BrkSt) (e : Nat), D.openErr = some e → scandir A K D sel cmp s = .ok ⟨s, some 1, -1, none⟩ := by
  have h : ∀ (A : Arena) (K : BrkK) (D : ScanK) (sel : Option (List Byte → Bool))
      (cmp : Option (List Byte → List Byte → Int)) (s : BrkSt) (e : Nat), D.openErr = some e →
      scandir A K D sel cmp s = .ok ⟨s, some 1, -1, none⟩ := by
    intro A K D sel cmp s e he
    unfold scandir
    rw [he]
    rfl
  refine ⟨fun hf => ?_, h⟩
  obtain ⟨r, h1, h2, -⟩ := hf exArena exBrkK ⟨some 2, [], 0⟩ none none (BrkSt.init exBrkK ⟨exHeapMem, 252⟩) 2 rfl
  rw [h exArena exBrkK ⟨some 2, [], 0⟩ none none _ 2 rfl] at h1
  cases h1
  exact absurd h2 (by decide)

end Minilib

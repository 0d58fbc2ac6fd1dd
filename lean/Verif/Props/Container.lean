import Verif.Model.Container
import Verif.Spec.Output
import Verif.Props.MemFn
import Verif.Props.Prints
import Verif.Lemmas.Group
/-
C97: the containers of the directory macros.
-/

set_option autoImplicit false

namespace Minilib
open Mem Spec

/-! ### the array -/

/-- The calls of `push` with the elements at the addresses `es`, and the answers. -/
def pushAll (K : WKernel) : Mem → Writes → MArr → List Nat → Res (Mem × Writes × MArr × List Nat)
  | m, w, a, [] => .ok (m, w, a, [])
  | m, w, a, e :: es => do
    let r ← arrPush K m w a e
    let q ← pushAll K r.1 r.2.1 r.2.2.1 es
    pure (q.1, q.2.1, q.2.2.1, r.2.2.2 :: q.2.2.2)

/-- `for ( p=current(&i); p; p=next(&i) )` with the bytes seen. -/
def arrWalk (K : WKernel) (m : Mem) (w : Writes) (i : ArrIter) (p : Nat) : Res (List Byte × Writes) :=
  if p = 0 then .ok ([], w)
  else do
    let b ← m.load p
    let r := arrNext K w i
    let q ← arrWalk K m r.1 r.2.1 r.2.2
    pure (b :: q.1, q.2)
partial_fixpoint

/-- The array at `base` with room for `cap` elements holds `l`. -/
structure Spec.Holding (m : Mem) (a : MArr) (cap : Nat) (l : List Byte) : Prop where
  pos : 0 < a.base
  last : a.last = a.base + 64 + l.length
  fits : l.length ≤ cap
  room : a.areaend = a.base + 64 + cap
  data : m.Holds (a.base + 64) l
  mapped : m.Mapped a.base (64 + cap)

/-- The elements at the addresses `es`, none of them in the array. -/
def Spec.Elements (m : Mem) (a : MArr) : List Nat → List Byte → Prop
  | [], [] => True
  | e :: es, b :: bs => m e = some b ∧ (e < a.base ∨ a.areaend ≤ e) ∧ Elements m a es bs
  | _, _ => False

theorem Spec.Elements.mono {m m' : Mem} {a a' : MArr} (h1 : a'.base = a.base) (h2 : a'.areaend = a.areaend)
    (hm : ∀ x, x < a.base ∨ a.areaend ≤ x → m' x = m x) : ∀ {es : List Nat} {bs : List Byte}, Spec.Elements m a es bs → Spec.Elements m' a' es bs
  | [], [], _ => trivial
  | _ :: _, [], h => by cases h
  | [], _ :: _, h => by cases h
  | e :: es, b :: bs, ⟨x, y, z⟩ => ⟨by rw [hm e y]; exact x, by rw [h1, h2]; exact y, Spec.Elements.mono h1 h2 hm z⟩

/-- C97: `newarray` with room: an empty array. -/
theorem C97_newarray {kern : Int → Option (Mem × Nat)} {n : Int} {m : Mem} {a : Nat} (h64 : 64 ≤ n ∨ n = 0)
    (hk : kern (if n = 0 then 4096 else n) = some (m, a)) (ha : 0 < a) (hm : m.Mapped a (if n = 0 then 4096 else n).toNat) :
    ∃ m' r, newarray kern n = .ok (m', some r) ∧ r.base = a ∧ Spec.Holding m' r ((if n = 0 then 4096 else n).toNat - 64) [] ∧
      (∀ x, x < a ∨ a + 64 ≤ x → m' x = m x) := by
  generalize hg : (if n = 0 then 4096 else n) = k at *
  have hk64 : 64 ≤ k := by split at hg <;> omega
  have h1 : m.Mapped a 64 := fun i hi => hm i (by omega)
  refine ⟨m.write a (List.replicate 64 (BitVec.ofInt 8 0)), ⟨a, k, a + 64, ((a : Int) + k).toNat⟩, ?_, rfl, ?_, ?_⟩
  · unfold newarray
    simp only [hg, hk]
    rw [if_neg (by omega), show (64 : Int) = ((64 : Nat) : Int) from rfl, C14_memset 0 h1]
    rfl
  · refine ⟨ha, rfl, by simp, ?_, holds_nil _ _, ?_⟩
    · dsimp only; omega
    · intro i hi
      exact (hm.write _ _) i (by omega)
  · intro x hx
    exact write_outside _ _ _ _ (by simp; omega)

/-- C97: `push` appends while there is room, in order, answers 0 when there is none, and writes nothing else. -/
theorem C97_push (K : WKernel) : ∀ {es : List Nat} {m : Mem} (w : Writes) {a : MArr} {cap : Nat} {l bs : List Byte}, Spec.Holding m a cap l →
    Spec.Elements m a es bs →
    ∃ m' w' a' rs, pushAll K m w a es = .ok (m', w', a', rs) ∧ a'.base = a.base ∧ Spec.Holding m' a' cap (l ++ bs.take (cap - l.length)) ∧
      rs.map (fun r => decide (r = 0)) = List.replicate (min (cap - l.length) bs.length) false ++ List.replicate (bs.length - (cap - l.length)) true ∧
      (∀ x, x < a.base + 64 + l.length ∨ a.base + 64 + cap ≤ x → m' x = m x)
  | [], m, w, a, cap, l, bs, H, E => by
    cases bs with
    | nil => exact ⟨m, w, a, [], rfl, rfl, by simpa using H, by simp, fun _ _ => rfl⟩
    | cons b bs => cases E
  | e :: es, m, w, a, cap, l, bs, H, E => by
    cases bs with
    | nil => cases E
    | cons b bs =>
      obtain ⟨E1, E2, E3⟩ := E
      have hlast := H.last
      have hroom := H.room
      by_cases hfull : l.length < cap
      · have hmap : ∃ c, m a.last = some c := by
          have := H.mapped (64 + l.length) (by omega)
          rwa [show a.base + (64 + l.length) = a.last by omega] at this
        obtain ⟨c, hc⟩ := hmap
        have hout : ∀ x, x ≠ a.last → (m.write a.last [b]) x = m x := fun x hx => write_outside _ _ _ _ (by simp; omega)
        have H1 : Spec.Holding (m.write a.last [b]) { a with last := a.last + 1 } cap (l ++ [b]) := by
          refine ⟨H.pos, by simp [hlast]; omega, by simp; omega, hroom, ?_, H.mapped.write _ _⟩
          rw [holds_append]
          refine ⟨?_, ?_⟩
          · exact Holds.write H.data (by simp; omega)
          · rw [← hlast]; exact write_holds _ _ _
        have E' : Spec.Elements (m.write a.last [b]) { a with last := a.last + 1 } es bs :=
          Spec.Elements.mono (a := a) (a' := { a with last := a.last + 1 }) rfl rfl (fun x hx => hout x (by omega)) E3
        obtain ⟨m', w', a', rs, e1, e2, e3, e4, e5⟩ := C97_push K w H1 E'
        refine ⟨m', w', a', (a.last + 1) :: rs, ?_, e2, ?_, ?_, ?_⟩
        · rw [pushAll, arrPush, if_pos (by omega), load_some E1, Res.ok_bind, store_some hc]
          rw [← write_singleton]
          show (pushAll K (m.write a.last [b]) w _ es >>= _) = _
          rw [e1]
          rfl
        · rw [List.append_assoc, List.singleton_append] at e3
          have : (b :: bs).take (cap - l.length) = b :: bs.take (cap - (l ++ [b]).length) := by
            rw [show cap - l.length = (cap - (l ++ [b]).length) + 1 by simp; omega, List.take_succ_cons]
          rw [this]; exact e3
        · simp only [List.map_cons, e4, List.length_cons, List.length_append, List.length_nil, Nat.zero_add]
          rw [show min (cap - l.length) (bs.length + 1) = min (cap - (l.length + 1)) bs.length + 1 by omega, List.replicate_succ, List.cons_append,
            show bs.length + 1 - (cap - l.length) = bs.length - (cap - (l.length + 1)) by omega]
          simp
        · intro x hx
          simp only [List.length_append, List.length_cons, List.length_nil] at e5
          rw [e5 x (by omega), hout x (by omega)]
      · obtain ⟨m', w', a', rs, e1, e2, e3, e4, e5⟩ := C97_push K (sysWrite K w 1 (textBytes "Full\n")).1 H E3
        refine ⟨m', w', a', 0 :: rs, ?_, e2, ?_, ?_, e5⟩
        · rw [pushAll, arrPush, if_neg (by omega)]
          show (pushAll K m _ a es >>= _) = _
          rw [e1]
          rfl
        · rw [show cap - l.length = 0 by omega] at e3 ⊢
          exact e3
        · rw [show cap - l.length = 0 by omega] at e4 ⊢
          simp only [List.map_cons, e4, List.length_cons, Nat.zero_min, Nat.sub_zero, List.replicate_zero, List.nil_append, List.replicate_succ]
          simp

theorem arrWalk_eq (K : WKernel) {m : Mem} {a : MArr} {last : Nat} : ∀ {l : List Byte} (w : Writes) {i : Nat}, 0 < i → m.Holds i l → last = i + l.length →
    l ≠ [] → arrWalk K m w ⟨a, i, last⟩ i = .ok (l, (sysWrite K w 1 (textBytes "last\n")).1)
  | [], _, _, _, _, _, h => absurd rfl h
  | b :: l, w, i, hi, hl, hlast, _ => by
    obtain ⟨h1, h2⟩ := holds_cons.1 hl
    rw [arrWalk, if_neg (by omega), load_some h1, Res.ok_bind]
    simp only [arrNext]
    cases l with
    | nil =>
      rw [if_neg (by simp at hlast; omega)]
      dsimp only
      rw [arrWalk, if_pos rfl]
      rfl
    | cons c l =>
      rw [if_pos (by simp at hlast; omega)]
      dsimp only
      rw [arrWalk_eq K (l := c :: l) w (by omega) h2 (by simp at hlast ⊢; omega) (by simp)]
      rfl

/-- C97: iterating over an array shows its elements, each one once and in the order they were appended. -/
theorem C97_iterate (K : WKernel) {m : Mem} (w : Writes) {a : MArr} {cap : Nat} {l : List Byte} (H : Spec.Holding m a cap l) :
    ∃ w', arrWalk K m w (getiter a) (arrCurrent (getiter a)) = .ok (l, w') := by
  have hlast := H.last
  have hpos := H.pos
  unfold arrCurrent
  by_cases hl : l = []
  · subst hl
    refine ⟨w, ?_⟩
    rw [if_pos (by simp [getiter, hlast]), arrWalk, if_pos rfl]
  · have : 0 < l.length := List.length_pos_iff.2 hl
    refine ⟨(sysWrite K w 1 (textBytes "last\n")).1, ?_⟩
    rw [if_neg (by simp only [getiter]; omega)]
    exact arrWalk_eq K w (by omega) H.data hlast hl

/-- C97: an array that is filled and read. -/
theorem C97_array (K : WKernel) {kern : Int → Option (Mem × Nat)} {n : Int} {m : Mem} {a : Nat} (h64 : 64 ≤ n ∨ n = 0)
    (hk : kern (if n = 0 then 4096 else n) = some (m, a)) (ha : 0 < a) (hm : m.Mapped a (if n = 0 then 4096 else n).toNat)
    {es : List Nat} {bs : List Byte} (hlen : es.length = bs.length)
    (hes : ∀ (k : Nat) (e : Nat), es[k]? = some e → m e = bs[k]? ∧ (e < a ∨ a + (if n = 0 then 4096 else n).toNat ≤ e)) (w : Writes) :
    ∃ m0 r m1 w1 r1 rs w2, newarray kern n = .ok (m0, some r) ∧ pushAll K m0 w r es = .ok (m1, w1, r1, rs) ∧
      arrWalk K m1 w1 (getiter r1) (arrCurrent (getiter r1)) = .ok (bs.take ((if n = 0 then 4096 else n).toNat - 64), w2) := by
  obtain ⟨m0, r, e1, hb, H, hout⟩ := C97_newarray h64 hk ha hm
  have hroom := H.room
  have hk64 : 64 ≤ (if n = 0 then 4096 else n) := by split <;> omega
  have E : ∀ (es : List Nat) (bs : List Byte), es.length = bs.length →
      (∀ (k : Nat) (e : Nat), es[k]? = some e → m e = bs[k]? ∧ (e < a ∨ a + (if n = 0 then 4096 else n).toNat ≤ e)) → Spec.Elements m0 r es bs := by
    intro es
    induction es with
    | nil => intro bs hl _; cases bs with | nil => trivial | cons b bs => simp at hl
    | cons e es ih =>
      intro bs hl h
      cases bs with
      | nil => simp at hl
      | cons b bs =>
        have h0 := h 0 e rfl
        refine ⟨?_, ?_, ih bs (by simpa using hl) (fun k x hx => h (k + 1) x (by simpa using hx))⟩
        · rw [hout e (by omega)]; exact h0.1
        · omega
  obtain ⟨m1, w1, r1, rs, e2, -, e4, -, -⟩ := C97_push K w H (E es bs hlen hes)
  obtain ⟨w2, e5⟩ := C97_iterate K w1 e4
  refine ⟨m0, r, m1, w1, r1, rs, w2, e1, e2, ?_⟩
  rw [e5]
  simp

/-- A kernel with a memory of `n` bytes of zeros at 65536, and the byte 7 at 100. -/
def arrKern (n : Int) : Option (Mem × Nat) :=
  some (Mem.objects [(100, [7#8]), (65536, List.replicate n.toNat 0#8)], 65536)

/-- C97, full statement for `push`: it answers with the address of the element it appended. -/
def C97_push_address_full : Prop :=
  ∀ (K : WKernel) (w : Writes) (m : Mem) (a : MArr) (cap : Nat) (l : List Byte) (e : Nat) (b : Byte), Spec.Holding m a cap l → l.length < cap →
    Spec.Elements m a [e] [b] → ∃ m' w' a' r, arrPush K m w a e = .ok (m', w', a', r) ∧ m' r = some b

/-- C97, full statement for `first`: 0 for an empty array. -/
def C97_first_full : Prop :=
  ∀ (m : Mem) (a : MArr) (cap : Nat), Spec.Holding m a cap [] → (arrFirst (getiter a)).2 = 0

/-- C97: of an array with elements `first` is the first one, also after others were read. -/
theorem C97_first_partial {m : Mem} {a : MArr} {cap : Nat} {b : Byte} {l : List Byte} (H : Spec.Holding m a cap (b :: l)) {i : ArrIter}
    (hi : i.current = a) : m (arrFirst i).2 = some b ∧ (arrFirst i).1.index = (arrFirst i).2 := by
  refine ⟨?_, rfl⟩
  simp only [arrFirst, hi]
  exact (holds_cons.1 H.data).1

/-- An empty array with room for two bytes. -/
def smallArr : MArr := ⟨1000, 66, 1064, 1066⟩

def smallMem : Mem := Mem.objects [(100, [7#8]), (1000, List.replicate 66 0#8)]

theorem small_holding : Spec.Holding smallMem smallArr 2 [] := by
  refine ⟨by decide, rfl, by decide, rfl, holds_nil _ _, ?_⟩
  intro i hi
  refine ⟨0#8, ?_⟩
  have : ∀ i, i < 66 → smallMem (1000 + i) = some 0#8 := by decide +kernel
  exact this i hi

theorem C97_push_address_refuted : ¬ C97_push_address_full := by
  intro h
  obtain ⟨m', w', a', r, h1, h2⟩ := h (fun _ n => n) [] smallMem smallArr 2 [] 100 7#8 small_holding (by decide) ⟨by decide +kernel, by decide, trivial⟩
  have e : arrPush (fun _ n => n) smallMem [] smallArr 100 = .ok (smallMem.upd 1064 7#8, [], { smallArr with last := 1065 }, 1065) := by
    rw [arrPush, if_pos (by decide), load_some (show smallMem 100 = some 7#8 by decide +kernel), Res.ok_bind,
      store_some (show smallMem smallArr.last = some 0#8 by decide +kernel)]
    rfl
  rw [e] at h1
  cases h1
  revert h2
  decide +kernel

theorem C97_first_refuted : ¬ C97_first_full := by
  intro h
  have := h smallMem smallArr 2 small_holding
  revert this
  decide

/-- C97, full statement: an array of variable length takes any number of elements. -/
def C97_grow_full : Prop :=
  ∀ (K : WKernel) (w : Writes) (m : Mem) (a : MArr) (cap : Nat) (es : List Nat) (bs : List Byte), Spec.Holding m a cap [] → Spec.Elements m a es bs →
    ∃ m' w' a' rs, pushAll K m w a es = .ok (m', w', a', rs) ∧ 0 ∉ rs

theorem C97_grow_refuted : ¬ C97_grow_full := by
  intro h
  have E : Spec.Elements smallMem smallArr [100, 100, 100] [7#8, 7#8, 7#8] := by
    have x : smallMem 100 = some 7#8 := by decide +kernel
    exact ⟨x, by decide, x, by decide, x, by decide, trivial⟩
  obtain ⟨m', w', a', rs, h1, h2⟩ := h (fun _ n => n) [] smallMem smallArr 2 _ _ small_holding E
  obtain ⟨m1, w1, a1, rs1, e1, -, -, e4, -⟩ := C97_push (fun _ n => n) [] small_holding E
  rw [e1] at h1
  cases h1
  have : true ∈ rs.map (fun r => decide (r = 0)) := by rw [e4]; decide
  obtain ⟨r, hr, hz⟩ := List.mem_map.1 this
  simp only [decide_eq_true_eq] at hz
  exact h2 (hz ▸ hr)

/-- C97, full statement for a failing `mmap`: `newarray` and `newlist` answer 0. -/
def C97_nomem_full : Prop :=
  ∀ (kern : Int → Option (Mem × Nat)) (n : Int), kern (if n = 0 then 4096 else n) = none → ∃ m, newarray kern n = .ok (m, none)

theorem C97_nomem_refuted : ¬ C97_nomem_full := by
  intro h
  obtain ⟨m, e⟩ := h (fun _ => none) 4096 rfl
  cases e

/-! ### the linked list -/

/-- C97, full statement for `append`: the element is copied behind the list, and its address is answered. -/
def C97_append_full : Prop :=
  ∀ (m : Mem) (l : MList) (e : Nat) (d : List Byte), m.Holds e d → m.Mapped l.last 8 → m.Mapped (l.last + 64) d.length →
    Disjoint (l.last + 64) d.length e d.length → (e + d.length ≤ l.last ∨ l.last + 8 ≤ e) →
    ∃ m' l' r, listAppend m l e d.length = .ok (m', l', r) ∧ m'.Holds r d

/-- C97: `append` writes through the length of the element as a pointer; with nothing at that address it is undefined, whatever the list. -/
theorem C97_append_undefined {m : Mem} {l : MList} {e : Nat} {d : List Byte} (he : m.Holds e d) (hl : m.Mapped l.last 8)
    (hn : m.Mapped (l.last + 64) d.length) (hd : Disjoint (l.last + 64) d.length e d.length)
    (hx : e + d.length ≤ l.last ∨ l.last + 8 ≤ e) (hlen : d.length + 16 < 18446744073709551616) (hlow : m (d.length + 16) = none) :
    listAppend m l e d.length = .ub := by
  have hv : (((d.length : Int) + 16) % 18446744073709551616).toNat = d.length + 16 := by omega
  have hnat : (natBytes 8 (d.length + 16)).length = 8 := by simp [natBytes]
  unfold listAppend
  rw [hv, storePtr_eq hl, Res.ok_bind, C14_memcpy (he.write (by rw [hnat]; omega)) (hn.write _ _) hd, Res.ok_bind]
  have hh : ((m.write l.last (natBytes 8 (d.length + 16))).write (l.last + 64) d).Holds l.last (natBytes 8 (d.length + 16)) :=
    (write_holds _ _ _).write (by rw [hnat]; omega)
  rw [loadPtr_eq hh hlen, Res.ok_bind]
  have h1 : d.length + 16 < l.last ∨ l.last + 8 ≤ d.length + 16 := by
    refine Decidable.byContradiction fun hc => ?_
    obtain ⟨b, hb⟩ := hl (d.length + 16 - l.last) (by omega)
    rw [show l.last + (d.length + 16 - l.last) = d.length + 16 by omega, hlow] at hb
    cases hb
  have h2 : d.length + 16 < l.last + 64 ∨ l.last + 64 + d.length ≤ d.length + 16 := by
    refine Decidable.byContradiction fun hc => ?_
    obtain ⟨b, hb⟩ := hn (d.length + 16 - (l.last + 64)) (by omega)
    rw [show l.last + 64 + (d.length + 16 - (l.last + 64)) = d.length + 16 by omega, hlow] at hb
    cases hb
  have hz : ((m.write l.last (natBytes 8 (d.length + 16))).write (l.last + 64) d) (d.length + 16) = none := by
    rw [write_outside _ _ _ _ (by omega), write_outside _ _ _ _ (by rw [hnat]; omega)]
    exact hlow
  have hs : memset ((m.write l.last (natBytes 8 (d.length + 16))).write (l.last + 64) d) (d.length + 16) 0 8 = .ub := by
    unfold memset
    rw [memsetLoop, if_pos (by decide), Mem.store, Nat.add_zero, hz]
    rfl
  rw [hs]
  rfl

/-- A list as `newlist` leaves it, at 65536. -/
def freshList : MList := ⟨66048, 66048, 327680, 0⟩

def freshMem : Mem := Mem.objects [(100, [7#8]), (65536, List.replicate 600 0#8)]

theorem C97_append_refuted : ¬ C97_append_full := by
  intro h
  have hm : ∀ i, i < 600 → freshMem (65536 + i) = some 0#8 := by decide +kernel
  have hl : freshMem.Mapped freshList.last 8 := by
    intro i hi
    refine ⟨0#8, ?_⟩
    rw [show freshList.last + i = 65536 + (512 + i) by simp only [freshList]; omega]
    exact hm _ (by omega)
  have hn : freshMem.Mapped (freshList.last + 64) [7#8].length := by
    intro i hi
    refine ⟨0#8, ?_⟩
    simp only [List.length_cons, List.length_nil] at hi
    rw [show freshList.last + 64 + i = 65536 + (576 + i) by simp only [freshList]; omega]
    exact hm _ (by omega)
  have he : freshMem.Holds 100 [7#8] := by
    rw [holds_cons]
    exact ⟨by decide +kernel, holds_nil _ _⟩
  have hd : Disjoint (freshList.last + 64) [7#8].length 100 [7#8].length := by intro a; simp [freshList]; omega
  obtain ⟨m', l', r, h1, -⟩ := h freshMem freshList 100 [7#8] he hl hn hd (by simp [freshList])
  rw [C97_append_undefined he hl hn hd (by simp [freshList]) (by decide) (by decide +kernel)] at h1
  cases h1

/-- C97, full statement for `newlist`: an empty list inside the memory asked for, a page for -1; where the memory ends is
noted. -/
def C97_newlist_full : Prop :=
  ∀ (kern : Int → Option (Mem × Nat)) (n : Int) (m : Mem) (l size : Nat), (size : Int) = (if n = -1 then 4096 else n) →
    kern size = some (m, l) → 0 < l → 520 ≤ size → m.Mapped l size →
    ∃ m' L, newlist kern n = .ok (m', some L) ∧ L.first = L.last ∧ l + 64 ≤ L.first ∧ L.first + 8 ≤ l + size ∧
      m'.Holds L.first (List.replicate 8 0#8) ∧ L.nodecount = 0 ∧ L.memend = l + size ∧
      ∀ a, a < l ∨ l + size ≤ a → m' a = m a

/-- C97: all of it but the end of the memory, which is noted 64 times as far behind the start. -/
theorem C97_newlist_partial {kern : Int → Option (Mem × Nat)} {n : Int} {m : Mem} {l size : Nat}
    (hs : (size : Int) = if n = -1 then 4096 else n) (hk : kern size = some (m, l)) (h0 : 0 < l) (h1 : 520 ≤ size)
    (hm : m.Mapped l size) :
    ∃ m' L, newlist kern n = .ok (m', some L) ∧ L.first = L.last ∧ l + 64 ≤ L.first ∧ L.first + 8 ≤ l + size ∧
      m'.Holds L.first (List.replicate 8 0#8) ∧ L.nodecount = 0 ∧ L.memend = l + 64 * size ∧
      ∀ a, a < l ∨ l + size ≤ a → m' a = m a := by
  have hz : natBytes 8 0 = List.replicate 8 0#8 := by decide
  have ha : m.Mapped l 64 := fun i hi => hm i (by omega)
  have hb : m.Mapped (l + 512) 8 := fun i hi => by
    obtain ⟨b, hb⟩ := hm (512 + i) (by omega)
    exact ⟨b, by rw [Nat.add_assoc]; exact hb⟩
  unfold newlist
  simp only [← hs, hk]
  have hset : memset m l 0 64 = .ok (m.write l (List.replicate 64 (BitVec.ofInt 8 0)), l) := C14_memset (n := 64) 0 ha
  rw [if_neg (by omega), hset, Res.ok_bind, storePtr_eq (hb.write _ _), Res.ok_bind]
  refine ⟨_, _, rfl, rfl, by simp only; omega, by simp only; omega, ?_, rfl, by simp only; omega, fun a ha => ?_⟩
  · rw [hz]; exact write_holds _ _ _
  · rw [write_outside _ _ _ _ (by rw [hz, List.length_replicate]; omega),
      write_outside _ _ _ _ (by rw [List.length_replicate]; omega)]

theorem newlist_mapped (k : Nat) : (Mem.objects [(100, [7#8]), (65536, List.replicate k 0#8)]).Mapped 65536 k := by
  intro i hi
  refine ⟨0#8, ?_⟩
  have h1 : [7#8][65536 + i - 100]? = none := List.getElem?_eq_none (by simp only [List.length_singleton]; omega)
  have h2 : (List.replicate k 0#8)[65536 + i - 65536]? = some 0#8 := by
    rw [List.getElem?_replicate, if_pos (by omega)]
  unfold Mem.objects
  rw [List.findSome?_cons, if_pos (by omega), h1]
  simp only
  rw [List.findSome?_cons, if_pos (by omega), h2]

theorem C97_newlist_refuted : ¬ C97_newlist_full := by
  intro h
  obtain ⟨m1, L1, e1, -, -, -, -, -, h1, -⟩ := h arrKern (-1) _ 65536 4096 rfl rfl (by decide) (by decide) (newlist_mapped _)
  obtain ⟨m2, L2, e2, -, -, -, -, -, h2, -⟩ := C97_newlist_partial (kern := arrKern) (n := -1) (size := 4096) rfl rfl
    (by decide) (by decide) (newlist_mapped _)
  rw [e1] at e2
  cases e2
  omega

/-- C97: an array with room for two bytes, three are appended, two are kept and read. -/
example : ∃ m0 r m1 w1 r1 rs w2, newarray arrKern 66 = .ok (m0, some r) ∧ pushAll (fun _ n => n) m0 [] r [100, 100, 100] = .ok (m1, w1, r1, rs) ∧
    arrWalk (fun _ n => n) m1 w1 (getiter r1) (arrCurrent (getiter r1)) = .ok ([7#8, 7#8], w2) := by
  refine C97_array (fun _ n => n) (kern := arrKern) (n := 66) (a := 65536) (by decide) rfl (by decide) ?_ (bs := [7#8, 7#8, 7#8]) rfl ?_ []
  · intro i hi
    have : ∀ i, i < 66 → (Mem.objects [(100, [7#8]), (65536, List.replicate 66 0#8)]) (65536 + i) = some 0#8 := by decide +kernel
    exact ⟨0#8, this i (by simpa using hi)⟩
  · intro k e hk
    have h1 : (Mem.objects [(100, [7#8]), (65536, List.replicate 66 0#8)]) 100 = some 7#8 := by decide +kernel
    match k, hk with
    | 0, hk => cases hk; exact ⟨h1, by decide⟩
    | 1, hk => cases hk; exact ⟨h1, by decide⟩
    | 2, hk => cases hk; exact ⟨h1, by decide⟩
    | k + 3, hk => cases hk

/-- C97: the hypotheses of `C97_newarray`, `C97_push` and `C97_iterate`. -/
example : ∃ m' w' a' rs, pushAll (fun _ n => n) smallMem [] smallArr [100] = .ok (m', w', a', rs) ∧ Spec.Holding m' a' 2 [7#8] := by
  obtain ⟨m', w', a', rs, h, -, h2, -⟩ := C97_push (fun _ n => n) [] small_holding (es := [100]) (bs := [7#8]) ⟨by decide +kernel, by decide, trivial⟩
  exact ⟨m', w', a', rs, h, h2⟩

/-- C97: a new array of 66 bytes holds nothing, and reading it gives nothing; of an array with the byte 7, that is the
first. -/
example : (∃ m' r w', newarray arrKern 66 = .ok (m', some r) ∧ r.base = 65536 ∧
      arrWalk (fun _ n => n) m' [] (getiter r) (arrCurrent (getiter r)) = .ok ([], w')) ∧
    ∃ m' a', Spec.Holding m' a' 2 [7#8] ∧ m' (arrFirst (getiter a')).2 = some 7#8 := by
  refine ⟨?_, ?_⟩
  · obtain ⟨m', r, h1, h2, h3, -⟩ := C97_newarray (kern := arrKern) (n := 66) (Or.inl (by decide)) rfl (by decide) (newlist_mapped _)
    obtain ⟨w', h4⟩ := C97_iterate (fun _ n => n) [] h3
    exact ⟨m', r, w', h1, h2, h4⟩
  · obtain ⟨m', w', a', rs, -, -, h2, -⟩ := C97_push (fun _ n => n) [] small_holding (es := [100]) (bs := [7#8])
      ⟨by decide +kernel, by decide, trivial⟩
    exact ⟨m', a', h2, (C97_first_partial h2 rfl).1⟩

end Minilib

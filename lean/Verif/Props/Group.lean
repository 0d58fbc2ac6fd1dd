import Verif.Lemmas.GroupLoop
import Verif.Props.Userdb
/-
C55: the group database.
-/

set_option autoImplicit false

namespace Minilib
open Mem

/-- One call, with the kernel's answer to an opening; the answer is NULL or what `struct group` holds. -/
def grStep (kern : Mapping) (s : GrState) : Spec.GrOp → Res (GrState × Option Group)
  | .rewind => .ok (setgrent s, none)
  | .next => do
    let r ← getgrent kern s
    pure (r.1, if r.2 = true then some r.1.gr else none)
  | .nam p _ => do
    let r ← getgrnam kern s p
    pure (r.1, if r.2 = true then some r.1.gr else none)
  | .gid n => do
    let r ← getgrgid kern s n
    pure (r.1, if r.2 = true then some r.1.gr else none)

/-- A list of calls and their answers. -/
def grRun (kern : Mapping) (s : GrState) : List Spec.GrOp → Res (GrState × List (Option Group))
  | [] => .ok (s, [])
  | op :: ops => do
    let r ← grStep kern s op
    let q ← grRun kern r.1 ops
    pure (q.1, r.2 :: q.2)

/-- The struct represents the line: its strings, the number, and a NULL-terminated array of the members. -/
def GrRep (m : Mem) (g : Group) (l : Spec.GrLine) : Prop :=
  m.IsStr g.name l.name ∧ m.IsStr g.passwd l.passwd ∧ g.gid = Spec.decValue l.gid ∧
    ∃ ptrs rest, g.mem = ptrs ++ 0 :: rest ∧ (∀ p ∈ ptrs, p ≠ 0) ∧ List.Forall₂ (fun p f => m.IsStr p f) ptrs l.members

/-- NULL stands for no line; a struct for the line whose fields it points to. -/
def GrAns (m : Mem) : Option Group → Option Spec.GrLine → Prop
  | none, none => True
  | some g, some l => GrRep m g l
  | _, _ => False

/-- The same, with the place in the file. -/
def GrAnsIn (ls : List Spec.GrLine) (a : Nat) (m : Mem) : Option Group → Option Spec.GrLine → Prop
  | none, none => True
  | some g, some l => ∃ j, ls[j]? = some l ∧ GrAt g (grStart ls a j) l ∧ GrDone m (grStart ls a j) l
  | _, _ => False

theorem grRep_of {m : Mem} {g : Group} {l : Spec.GrLine} {p : Nat} (hp : 0 < p) (h1 : GrAt g p l) (h2 : GrDone m p l) :
    GrRep m g l := by
  obtain ⟨a1, a2, a3, a4, a5, a6⟩ := h1
  obtain ⟨d1, d2, d3, d4⟩ := h2
  refine ⟨by rw [a1]; exact d1, by rw [a2]; exact d2, a3, _, g.mem.drop (l.members.length + 1), ?_, ?_, strs_forall d4⟩
  · rw [← a5]
    obtain ⟨h, h'⟩ := List.getElem?_eq_some_iff.1 a6
    rw [← h', ← List.drop_eq_getElem_cons h, List.take_append_drop]
  · exact addrs_pos (by omega)

theorem GrAnsIn.ans {ls : List Spec.GrLine} {a : Nat} {m : Mem} {g : Option Group} {l : Option Spec.GrLine} (ha : a ≠ 0)
    (h : GrAnsIn ls a m g l) : GrAns m g l := by
  cases g with
  | none => cases l <;> simp_all [GrAns, GrAnsIn]
  | some g =>
    cases l with
    | none => simp_all [GrAnsIn]
    | some l =>
      obtain ⟨j, _, h1, h2⟩ := h
      exact grRep_of (Nat.lt_of_lt_of_le (Nat.pos_of_ne_zero ha) le_grStart) h1 h2

theorem GrAnsIn.cut {ls : List Spec.GrLine} {a : Nat} {m m' : Mem} {g : Option Group} {l : Option Spec.GrLine}
    (hG : ∀ l ∈ ls, l.Good) (h : GrAnsIn ls a m g l) (hc : GCut ls a m m') : GrAnsIn ls a m' g l := by
  cases g with
  | none => cases l <;> simp_all [GrAnsIn]
  | some g =>
    cases l with
    | none => simp_all [GrAnsIn]
    | some l =>
      obtain ⟨j, h0, h1, h2⟩ := h
      have hg := hG l (List.mem_of_getElem? h0)
      refine ⟨j, h0, h1, h2.cut hg hc ?_⟩
      rw [← grStart_succ h0 hg]; exact grStart_le

/-- The state that belongs to what a reader remembers. -/
def HInv (ls : List Spec.GrLine) (m0 : Mem) (a : Nat) (s : GrState) (k : Spec.GrMind) : Prop :=
  if k.opened = true then
    ∃ r, GInv ls a s k.pos r ∧ LastOk ls a r s.gr k.last ∧ k.last.isSome = true ∧ GCut ls a m0 s.m
  else s.f.file = 0 ∧ k.last = none ∧ s.gr.mem.length = 64

theorem ginv_rewind {ls : List Spec.GrLine} {a pos r : Nat} {s : GrState} (h : GInv ls a s pos r) :
    GInv ls a (setgrent s) 0 r := by
  obtain ⟨s0, s1, s2, s3, s4, s5, s6, s7, s8, s9⟩ := h
  exact ⟨s0, s1, Nat.zero_le _, s3, by simp [setgrent, grStart, Spec.grText, s0], by simp [setgrent, s0, s1], s6, s7, s8, s9⟩

theorem ginv_open {ls : List Spec.GrLine} {m0 : Mem} {a : Nat} {gr : Group} (hT : m0.Holds a (Spec.grText ls))
    (hz : ∀ i, i < 8 * ls.length → m0 (a + (Spec.grText ls).length + i) = some 0#8) (hm : gr.mem.length = 64) :
    GInv ls a { m := m0, f := freshDb a (Spec.grText ls).length, gr := gr } 0 0 := by
  refine ⟨rfl, rfl, Nat.le_refl _, Nat.zero_le _, ?_, rfl, ?_, ?_, ?_, hm⟩
  · simp [grStart, Spec.grText]
  · intro j l hj; omega
  · simpa [grStart, Spec.grText] using hT
  · intro j _ hj i hi
    rw [length_natBytes] at hi
    have h8 : natBytes 8 0 = List.replicate 8 0#8 := by decide
    dsimp only
    rw [Nat.add_assoc, hz _ (by omega)]
    simp only [h8, List.getElem_replicate]

theorem gfound_ans {ls : List Spec.GrLine} {a r pos : Nat} {s : GrState} {b : Bool} {w : Option Spec.GrLine}
    (hi : GInv ls a s pos r) (h : GFound ls a r s.gr b w) : GrAnsIn ls a s.m (if b = true then some s.gr else none) w := by
  cases w with
  | none => simp only [GFound] at h; subst h; trivial
  | some l =>
    obtain ⟨rfl, j, hj, hl, hat⟩ := h
    exact ⟨j, hl, hat, (hi.done j l hj hl).1⟩

theorem grSearch_last {P : Spec.GrLine → Bool} {k : Nat} {last : Option Spec.GrLine} {ls : List Spec.GrLine} (h : ls ≠ []) :
    (Spec.grSearch P k last ls).2.2.isSome = true := by
  induction ls generalizing k last with
  | nil => exact absurd rfl h
  | cons l ls ih =>
    rw [Spec.grSearch]
    split
    · rfl
    · by_cases hls : ls = []
      · subst hls; rfl
      · exact ih hls

theorem grSearch_answer (P : Spec.GrLine → Bool) (k : Nat) (last : Option Spec.GrLine) (ls : List Spec.GrLine) :
    (Spec.grSearch P k last ls).1 = ls.find? P := by
  induction ls generalizing k last with
  | nil => rfl
  | cons l ls ih =>
    rw [Spec.grSearch]
    split
    · rename_i h; rw [List.find?_cons_of_pos h]
    · rename_i h; rw [List.find?_cons_of_neg h, ih]

/-- The text of the name is where the call says, outside of the memory that the library uses behind the file. -/
def GNamOk (ls : List Spec.GrLine) (a : Nat) (m : Mem) : Spec.GrOp → Prop
  | .nam p name => m.IsStr p name ∧ Spec.Word name ∧ name.length < 2147483647 ∧
      (p + name.length < a + (Spec.grText ls).length ∨ a + (Spec.grText ls).length + 8 * ls.length ≤ p)
  | _ => True

theorem userdbOpen_closed {m0 m : Mem} {a n : Nat} {f : Userdb} (h : f.file = 0) :
    userdbOpen (some (m0, a, n)) m f = some (m0, freshDb a n) := by
  unfold userdbOpen
  rw [if_neg (by simp [h])]

theorem getgrentOpen_step {ls : List Spec.GrLine} {a pos r : Nat} {s : GrState} {last : Option Spec.GrLine} (hG : ∀ l ∈ ls, l.Good)
    (h64 : a + (Spec.grText ls).length < 18446744073709551616) (hi : GInv ls a s pos r) (hl : LastOk ls a r s.gr last) :
    ∃ s' b r', getgrentOpen s.m s.f s.gr = .ok (s', b) ∧
      GInv ls a s' (if ls[pos]?.isSome then pos + 1 else pos) r' ∧ LastOk ls a r' s'.gr (ls[pos]?.or last) ∧
      GrAnsIn ls a s'.m (if b = true then some s'.gr else none) ls[pos]? ∧ GCut ls a s.m s'.m := by
  cases hg : ls[pos]? with
  | none =>
    obtain ⟨e, _⟩ := getgrent_end hi hg
    exact ⟨s, false, r, e, hi, hl, trivial, Cut.refl _ _ _ _ _⟩
  | some l =>
    obtain ⟨s', r', e, i', h1, h2, hat, hc⟩ := getgrent_line hG h64 hi hg
    exact ⟨s', true, r', e, i', fun x hx => by cases hx; exact ⟨pos, h2, hg, hat⟩,
      ⟨pos, hg, hat, (i'.done pos l h2 hg).1⟩, hc⟩

theorem grCall_next (ls : List Spec.GrLine) (k : Spec.GrMind) :
    Spec.grCall ls k .next = (ls[if k.opened then k.pos else 0]?,
      { opened := true
        pos := if (ls[if k.opened then k.pos else 0]?).isSome then (if k.opened then k.pos else 0) + 1
          else if k.opened then k.pos else 0
        last := (ls[if k.opened then k.pos else 0]?).or k.last }) := by
  simp only [Spec.grCall]
  cases h : ls[if k.opened then k.pos else 0]? <;> rfl

theorem grStep_inv {ls : List Spec.GrLine} {m0 : Mem} {a : Nat} {s : GrState} {k : Spec.GrMind} {op : Spec.GrOp}
    (hne : ls ≠ []) (hG : ∀ l ∈ ls, l.Good) (ha : a ≠ 0) (h64 : a + (Spec.grText ls).length < 18446744073709551616)
    (hlen : (Spec.grText ls).length < 2147483648) (hT : m0.Holds a (Spec.grText ls))
    (hz : ∀ i, i < 8 * ls.length → m0 (a + (Spec.grText ls).length + i) = some 0#8)
    (hk : HInv ls m0 a s k) (hn : GNamOk ls a m0 op) :
    ∃ s' w, grStep (some (m0, a, (Spec.grText ls).length)) s op = .ok (s', w) ∧ HInv ls m0 a s' (Spec.grCall ls k op).2 ∧
      GrAnsIn ls a s'.m w (Spec.grCall ls k op).1 ∧
      (k.opened = true → GCut ls a s.m s'.m) := by
  obtain ⟨opened, pos, last⟩ := k
  cases op with
  | rewind =>
    refine ⟨_, _, rfl, ?_, trivial, fun _ => Cut.refl _ _ _ _ _⟩
    cases opened with
    | false => exact hk
    | true =>
      obtain ⟨r, h1, h2, h3, h4⟩ := hk
      exact ⟨r, ginv_rewind h1, h2, h3, h4⟩
  | next =>
    rw [grCall_next]
    cases opened with
    | false =>
      obtain ⟨h1, h2, h3⟩ := hk
      dsimp only at h2
      subst h2
      obtain ⟨s', b, r', e, i', l', n', c'⟩ := getgrentOpen_step (last := none) hG h64 (ginv_open hT hz h3)
        (fun e he => by cases he)
      refine ⟨s', _, ?_, ⟨r', i', l', ?_, c'⟩, n', fun h => by cases h⟩
      · simp only [grStep, getgrent, userdbOpen_closed h1]
        rw [e]; rfl
      · cases ls with
        | nil => exact absurd rfl hne
        | cons x xs => rfl
    | true =>
      obtain ⟨r, h1, h2, h3, h4⟩ := hk
      obtain ⟨s', b, r', e, i', l', n', c'⟩ := getgrentOpen_step hG h64 h1 h2
      refine ⟨s', _, ?_, ⟨r', i', l', ?_, h4.trans c' seps3_zero⟩, n', fun _ => c'⟩
      · simp only [grStep]
        rw [getgrent_open (by rw [h1.file]; exact ha), e]; rfl
      · dsimp only at h3 ⊢
        rw [if_pos rfl]
        cases ls[pos]? with
        | none => exact h3
        | some _ => rfl
  | nam nm name =>
    obtain ⟨n1, n2, n3, n4⟩ := hn
    cases opened with
    | false =>
      obtain ⟨h1, h2, h3⟩ := hk
      dsimp only at h2
      subst h2
      obtain ⟨s', b, r', e, i', l', f', c'⟩ := getgrnamLoop_eq (kern := some (m0, a, (Spec.grText ls).length)) (last := none) hG ha h64 (ginv_rewind (ginv_open hT hz h3))
        (fun e he => by cases he) rfl n1 n2 n3 n4
      refine ⟨s', _, ?_, ⟨r', i', l', grSearch_last hne, c'⟩, gfound_ans i' f', fun h => by cases h⟩
      simp only [grStep, getgrnam, h1, if_true, userdbOpen_closed h1]
      rw [e]; rfl
    | true =>
      obtain ⟨r, h1, h2, h3, h4⟩ := hk
      obtain ⟨e, he⟩ := Option.isSome_iff_exists.1 h3
      dsimp only at he
      subst he
      obtain ⟨j, hj, hlj, hat⟩ := h2 e rfl
      have heg := hG e (List.mem_of_getElem? hlj)
      have hnow := h4.isStr n1 (word_seps3 n2) seps3_zero (by omega)
      have hlt : e.name.length < 2147483647 := by
        have hs := grStart_succ (a := a) hlj heg
        have hs' := grStart_le (ls := ls) (a := a) (j := j + 1)
        have hs'' := le_grStart (ls := ls) (a := a) (j := j)
        unfold grWidth at hs
        omega
      have hd := (h1.done j e hj hlj).1
      obtain ⟨x, hx, _, hx0, _⟩ := C06_strcmp (show s.m.IsStr s.gr.name e.name by rw [hat.1]; exact hd.1) hnow hlt
      have hf0 : s.f.file ≠ 0 := by rw [h1.file]; exact ha
      by_cases heq : e.name = name
      · have hc : Spec.grCall ls ⟨true, pos, some e⟩ (.nam nm name) = (some e, ⟨true, pos, some e⟩) := by
          simp only [Spec.grCall, Spec.grLookup, Option.any_some, heq, decide_true, and_self, if_true]
        rw [hc]
        refine ⟨s, some s.gr, ?_, ⟨r, h1, h2, rfl, h4⟩, ⟨j, hlj, hat, hd⟩, fun _ => Cut.refl _ _ _ _ _⟩
        simp only [grStep, getgrnam]
        rw [if_neg hf0, hx, Res.ok_bind, if_pos (hx0.2 heq)]; rfl
      · have hc : Spec.grCall ls ⟨true, pos, some e⟩ (.nam nm name) =
            ((Spec.grSearch (fun l => decide (l.name = name)) 0 (some e) ls).1,
              ⟨true, (Spec.grSearch (fun l => decide (l.name = name)) 0 (some e) ls).2.1,
                (Spec.grSearch (fun l => decide (l.name = name)) 0 (some e) ls).2.2⟩) := by
          simp only [Spec.grCall, Spec.grLookup, Option.any_some, heq, decide_false, Bool.false_eq_true, and_false, if_false]
        rw [hc]
        obtain ⟨s', b, r', e', i', l', f', c'⟩ := getgrnamLoop_eq (kern := some (m0, a, (Spec.grText ls).length)) (last := some e) hG ha h64 (ginv_rewind h1)
          h2 rfl hnow n2 n3 n4
        refine ⟨s', _, ?_, ⟨r', i', l', grSearch_last hne, h4.trans c' seps3_zero⟩, gfound_ans i' f', fun _ => c'⟩
        simp only [grStep, getgrnam]
        rw [if_neg hf0, hx, Res.ok_bind, if_neg (fun h => heq (hx0.1 h)), e']; rfl
  | gid n =>
    cases opened with
    | false =>
      obtain ⟨h1, h2, h3⟩ := hk
      dsimp only at h2
      subst h2
      obtain ⟨s', b, r', e, i', l', f', c'⟩ := getgrgidLoop_eq (kern := some (m0, a, (Spec.grText ls).length)) (n := n) (last := none) hG ha h64 (ginv_rewind (ginv_open hT hz h3))
        (fun e he => by cases he) rfl
      refine ⟨s', _, ?_, ⟨r', i', l', grSearch_last hne, c'⟩, gfound_ans i' f', fun h => by cases h⟩
      simp only [grStep, getgrgid, h1, if_true, userdbOpen_closed h1]
      rw [e]; rfl
    | true =>
      obtain ⟨r, h1, h2, h3, h4⟩ := hk
      obtain ⟨e, he⟩ := Option.isSome_iff_exists.1 h3
      dsimp only at he
      subst he
      obtain ⟨j, hj, hlj, hat⟩ := h2 e rfl
      have hd := (h1.done j e hj hlj).1
      have hf0 : s.f.file ≠ 0 := by rw [h1.file]; exact ha
      by_cases heq : Spec.decValue e.gid = n
      · have hc : Spec.grCall ls ⟨true, pos, some e⟩ (.gid n) = (some e, ⟨true, pos, some e⟩) := by
          simp only [Spec.grCall, Spec.grLookup, Option.any_some, heq, decide_true, and_self, if_true]
        rw [hc]
        refine ⟨s, some s.gr, ?_, ⟨r, h1, h2, rfl, h4⟩, ⟨j, hlj, hat, hd⟩, fun _ => Cut.refl _ _ _ _ _⟩
        simp only [grStep, getgrgid]
        rw [if_neg hf0, if_pos (by rw [hat.2.2.1]; exact heq)]; rfl
      · have hc : Spec.grCall ls ⟨true, pos, some e⟩ (.gid n) =
            ((Spec.grSearch (fun l => decide (Spec.decValue l.gid = n)) 0 (some e) ls).1,
              ⟨true, (Spec.grSearch (fun l => decide (Spec.decValue l.gid = n)) 0 (some e) ls).2.1,
                (Spec.grSearch (fun l => decide (Spec.decValue l.gid = n)) 0 (some e) ls).2.2⟩) := by
          simp only [Spec.grCall, Spec.grLookup, Option.any_some, heq, decide_false, Bool.false_eq_true, and_false, if_false]
        rw [hc]
        obtain ⟨s', b, r', e', i', l', f', c'⟩ := getgrgidLoop_eq (kern := some (m0, a, (Spec.grText ls).length)) (n := n) (last := some e) hG ha h64 (ginv_rewind h1)
          h2 rfl
        refine ⟨s', _, ?_, ⟨r', i', l', grSearch_last hne, h4.trans c' seps3_zero⟩, gfound_ans i' f', fun _ => c'⟩
        simp only [grStep, getgrgid]
        rw [if_neg hf0, if_neg (by rw [hat.2.2.1]; exact heq), e']; rfl

theorem grCall_opened (ls : List Spec.GrLine) (k : Spec.GrMind) (op : Spec.GrOp) :
    (Spec.grCall ls k op).2.opened = true ∨ (op = .rewind ∧ k.opened = false) := by
  cases op with
  | rewind => cases h : k.opened <;> simp [Spec.grCall, h]
  | next => rw [grCall_next]; exact Or.inl rfl
  | nam p name =>
    left; simp only [Spec.grCall, Spec.grLookup]
    split
    · rename_i h; exact h.1
    · rfl
  | gid n =>
    left; simp only [Spec.grCall, Spec.grLookup]
    split
    · rename_i h; exact h.1
    · rfl

theorem grRun_inv {ls : List Spec.GrLine} {m0 : Mem} {a : Nat} {s : GrState} {k : Spec.GrMind} {ops : List Spec.GrOp}
    (hne : ls ≠ []) (hG : ∀ l ∈ ls, l.Good) (ha : a ≠ 0) (h64 : a + (Spec.grText ls).length < 18446744073709551616)
    (hlen : (Spec.grText ls).length < 2147483648) (hT : m0.Holds a (Spec.grText ls))
    (hz : ∀ i, i < 8 * ls.length → m0 (a + (Spec.grText ls).length + i) = some 0#8)
    (hk : HInv ls m0 a s k) (hn : ∀ op ∈ ops, GNamOk ls a m0 op) :
    ∃ s' ws, grRun (some (m0, a, (Spec.grText ls).length)) s ops = .ok (s', ws) ∧
      List.Forall₂ (GrAnsIn ls a s'.m) ws (Spec.grAnswers ls k ops) ∧ (k.opened = true → GCut ls a s.m s'.m) ∧
      (GCut ls a m0 s'.m ∨ s'.m = s.m) ∧ ∃ k', HInv ls m0 a s' k' := by
  induction ops generalizing s k with
  | nil => exact ⟨s, [], rfl, List.Forall₂.nil, fun _ => Cut.refl _ _ _ _ _, Or.inr rfl, k, hk⟩
  | cons op ops ih =>
    obtain ⟨s1, w, e1, h1, a1, c1⟩ := grStep_inv hne hG ha h64 hlen hT hz hk (hn op (by simp))
    obtain ⟨s2, ws, e2, a2, c2, c3, k4⟩ := ih h1 (fun o ho => hn o (by simp [ho]))
    refine ⟨s2, w :: ws, ?_, ?_, ?_, ?_, k4⟩
    · rw [grRun, e1, Res.ok_bind, e2]; rfl
    · refine List.Forall₂.cons ?_ a2
      rcases grCall_opened ls k op with ho | ⟨rfl, -⟩
      · exact a1.cut hG (c2 ho)
      · cases w with
        | none => trivial
        | some _ => exact a1.elim
    · intro ho
      rcases grCall_opened ls k op with ho' | ⟨rfl, ho'⟩
      · exact (c1 ho).trans (c2 ho') seps3_zero
      · rw [ho'] at ho; cases ho
    · rcases grCall_opened ls k op with ho' | ⟨rfl, ho'⟩
      · rw [HInv, if_pos ho'] at h1
        obtain ⟨r, -, -, -, h4⟩ := h1
        exact Or.inl (h4.trans (c2 ho') seps3_zero)
      · cases e1
        exact c3

/-- C55: over every history of setgrent, getgrent, getgrnam and getgrgid on a file of well-formed lines, which is followed by
one zero pointer per line, no call has undefined behaviour; the answers are those of a reader that remembers the position and
the last line, each as a struct whose strings and member list are those of the line, and stay valid until the end; nothing but
the mapping is written.  Partial: a line without members is read as a line with one empty member (C55_nomembers_refuted), a
file without newline at its end (C55_newline_refuted), numbers above INT_MAX and lines with more than 63 members are not
covered, and the zero bytes behind the text are a hypothesis (C55_page_refuted). -/
theorem C55_group_partial {ls : List Spec.GrLine} {m0 : Mem} {a : Nat} {s : GrState} {ops : List Spec.GrOp}
    (hne : ls ≠ []) (hG : ∀ l ∈ ls, l.Good) (ha : a ≠ 0) (h64 : a + (Spec.grText ls).length < 18446744073709551616)
    (hlen : (Spec.grText ls).length < 2147483648) (hT : m0.Holds a (Spec.grText ls))
    (hz : ∀ i, i < 8 * ls.length → m0 (a + (Spec.grText ls).length + i) = some 0#8)
    (hs : s.f.file = 0) (hm : s.gr.mem.length = 64)
    (hm0 : ∀ x, (x < a ∨ a + (Spec.grText ls).length + 8 * ls.length ≤ x) → m0 x = s.m x)
    (hn : ∀ op ∈ ops, GNamOk ls a m0 op) :
    ∃ s' ws, grRun (some (m0, a, (Spec.grText ls).length)) s ops = .ok (s', ws) ∧
      List.Forall₂ (GrAns s'.m) ws (Spec.grAnswers ls { opened := false, pos := 0, last := none } ops) ∧
      ∀ x, (x < a ∨ a + (Spec.grText ls).length + 8 * ls.length ≤ x) → s'.m x = s.m x := by
  obtain ⟨s', ws, h1, h2, -, h4, -⟩ := grRun_inv (k := { opened := false, pos := 0, last := none }) hne hG ha h64 hlen hT hz
    (show HInv ls m0 a s _ from ⟨hs, rfl, hm⟩) hn
  refine ⟨s', ws, h1, h2.imp (fun _ _ h => h.ans ha), ?_⟩
  intro x hx
  rcases h4 with h | h
  · rw [← hm0 x hx]
    rcases h x with e | ⟨e1, e2, _⟩ | ⟨e1, e2, _⟩
    · exact e
    · omega
    · omega
  · rw [h]

theorem grLookup_eq {ls : List Spec.GrLine} {k : Spec.GrMind} {P : Spec.GrLine → Bool}
    (hd : ∀ e ∈ ls, ∀ e' ∈ ls, P e = true → P e' = true → e = e') (hl : ∀ e, k.last = some e → e ∈ ls) :
    (Spec.grLookup ls k P).1 = ls.find? P := by
  unfold Spec.grLookup
  split
  · rename_i h
    obtain ⟨e, he, hp⟩ := (Option.any_eq_true _ _).1 h.2
    dsimp only
    rw [he]
    cases hf : ls.find? P with
    | none => exact absurd hp (by simpa using List.find?_eq_none.1 hf e (hl e he))
    | some e' => rw [hd e (hl e he) e' (List.mem_of_find?_eq_some hf) hp (List.find?_some hf)]
  · exact grSearch_answer _ _ _ _

theorem grSearch_mem {P : Spec.GrLine → Bool} {n : Nat} {last : Option Spec.GrLine} {ls : List Spec.GrLine} {e : Spec.GrLine}
    (h : (Spec.grSearch P n last ls).2.2 = some e) : e ∈ ls ∨ last = some e := by
  induction ls generalizing n last with
  | nil => exact Or.inr h
  | cons l ls ih =>
    rw [Spec.grSearch] at h
    split at h
    · cases h; simp
    · rcases ih h with h | h
      · simp [h]
      · cases h; simp

/-- The last line is one of the file. -/
theorem grCall_last {ls : List Spec.GrLine} {k : Spec.GrMind} {op : Spec.GrOp} (h : ∀ e, k.last = some e → e ∈ ls) :
    ∀ e, (Spec.grCall ls k op).2.last = some e → e ∈ ls := by
  intro e he
  have look : ∀ P, (Spec.grLookup ls k P).2.last = some e → e ∈ ls := by
    intro P hP
    unfold Spec.grLookup at hP
    split at hP
    · exact h e hP
    · rcases grSearch_mem hP with h' | h'
      · exact h'
      · exact h e h'
  cases op with
  | rewind => exact h e he
  | next =>
    rw [grCall_next] at he
    dsimp only at he
    generalize (if k.opened = true then k.pos else 0) = q at he
    cases hq : ls[q]? with
    | none => rw [hq] at he; exact h e he
    | some l =>
      rw [hq] at he
      cases he
      exact List.mem_of_getElem? hq
  | nam p name => exact look _ he
  | gid n => exact look _ he

/-- The answers of lookups, read off the file alone. -/
def _root_.Spec.grPlain (ls : List Spec.GrLine) : Spec.GrOp → Option (Option Spec.GrLine)
  | .nam _ name => some (ls.find? (fun l => l.name = name))
  | .gid n => some (ls.find? (fun l => Spec.decValue l.gid = n))
  | _ => none

/-- No two lines have the same name or number. -/
def _root_.Spec.GrDistinct (ls : List Spec.GrLine) : Prop :=
  ∀ e ∈ ls, ∀ e' ∈ ls, (e.name = e'.name ∨ Spec.decValue e.gid = Spec.decValue e'.gid) → e = e'

/-- C55: when names and numbers are unique, every lookup in every history answers the line with that name or number, or NULL if
there is none. -/
theorem C55_group_plain {ls : List Spec.GrLine} {k : Spec.GrMind} {ops : List Spec.GrOp} (hd : Spec.GrDistinct ls)
    (hl : ∀ e, k.last = some e → e ∈ ls) (j : Nat) (op : Spec.GrOp) (w : Option Spec.GrLine) (hj : ops[j]? = some op)
    (hw : Spec.grPlain ls op = some w) : (Spec.grAnswers ls k ops)[j]? = some w := by
  induction ops generalizing k j with
  | nil => cases hj
  | cons o ops ih =>
    cases j with
    | succ j => exact ih (grCall_last hl) j hj
    | zero =>
      cases hj
      show some _ = some w
      cases op with
      | rewind => cases hw
      | next => cases hw
      | nam p name =>
        cases hw
        refine congrArg some (grLookup_eq ?_ hl)
        intro e he e' he' h1 h2
        exact hd e he e' he' (Or.inl ((of_decide_eq_true h1).trans (of_decide_eq_true h2).symm))
      | gid n =>
        cases hw
        refine congrArg some (grLookup_eq ?_ hl)
        intro e he e' he' h1 h2
        exact hd e he e' he' (Or.inr ((of_decide_eq_true h1).trans (of_decide_eq_true h2).symm))

/-! ### the groups of a user -/

theorem isMember_eq {m : Mem} {user : Nat} {name : List Byte} {ptrs rest : List Nat} {fs : List (List Byte)}
    (h : List.Forall₂ (fun p f => m.IsStr p f) ptrs fs) (h0 : ∀ p ∈ ptrs, p ≠ 0) (hu : m.IsStr user name)
    (hl : ∀ f ∈ fs, f.length < 2147483647) : isMember m user (ptrs ++ 0 :: rest) = .ok (decide (name ∈ fs)) := by
  induction h with
  | nil => rw [List.nil_append, isMember, if_pos rfl]; simp
  | @cons p f ptrs fs hp hps ih =>
    obtain ⟨x, hx, -, hx0, -⟩ := C06_strcmp hp hu (hl f (by simp))
    rw [List.cons_append, isMember, if_neg (h0 p (by simp)), hx, Res.ok_bind]
    by_cases he : f = name
    · rw [if_pos (hx0.2 he)]; simp [he]
    · rw [if_neg (fun h => he (hx0.1 h)), ih (fun q hq => h0 q (by simp [hq])) (fun g hg => hl g (by simp [hg]))]
      simp [Ne.symm he]

theorem groupsOf_cons (l : Spec.GrLine) (ls : List Spec.GrLine) (user : List Byte) :
    Spec.groupsOf (l :: ls) user = (if user ∈ l.members then [Spec.decValue l.gid] else []) ++ Spec.groupsOf ls user := by
  unfold Spec.groupsOf
  rw [List.filter_cons]
  by_cases h : user ∈ l.members <;> simp [h]

theorem width_mem {f : List Byte} {fs : List (List Byte)} (h : f ∈ fs) : f.length ≤ width fs := by
  induction fs with
  | nil => cases h
  | cons g fs ih =>
    rw [width_cons]
    rcases List.mem_cons.1 h with rfl | h
    · omega
    · have := ih h; omega

/-- The result of getusergroups. -/
def _root_.Spec.userGroups (gs : List Nat) (done : List Nat) (n : Nat) : Int × List Nat :=
  if gs.length < n then ((done.length + gs.length : Nat), done ++ gs) else (-1, done ++ gs.take n)

theorem usergroupsLoop_eq {kern : Mapping} {ls : List Spec.GrLine} {a : Nat} {user : Nat} {name : List Byte}
    (hG : ∀ l ∈ ls, l.Good) (ha : a ≠ 0) (h64 : a + (Spec.grText ls).length < 18446744073709551616)
    (hlen : (Spec.grText ls).length < 2147483648) (rest : List Spec.GrLine) :
    ∀ (s : GrState) (pos r n : Nat) (acc : List Nat), ls.drop pos = rest → GInv ls a s pos r →
      s.m.IsStr user name → Spec.Word name →
      (user + name.length < a + (Spec.grText ls).length ∨ a + (Spec.grText ls).length + 8 * ls.length ≤ user) →
      ∃ s' p' r', usergroupsLoop kern user s n acc =
          .ok (s', Spec.userGroups (Spec.groupsOf rest name) acc.reverse n) ∧ GInv ls a s' p' r' ∧ GCut ls a s.m s'.m := by
  induction rest with
  | nil =>
    intro s pos r n acc hd hi hu hw hr
    cases n with
    | zero =>
      refine ⟨s, pos, r, ?_, hi, Cut.refl _ _ _ _ _⟩
      rw [usergroupsLoop]; simp [Spec.userGroups, Spec.groupsOf]
    | succ n =>
      have hnone : ls[pos]? = none := by
        rw [List.getElem?_eq_none_iff]; exact List.drop_eq_nil_iff.1 hd
      refine ⟨s, pos, r, ?_, hi, Cut.refl _ _ _ _ _⟩
      rw [usergroupsLoop, getgrent_open (by rw [hi.file]; exact ha), (getgrent_end hi hnone).1, Res.ok_bind,
        if_neg (by simp)]
      simp [Spec.userGroups, Spec.groupsOf]
  | cons l rest ih =>
    intro s pos r n acc hd hi hu hw hr
    cases n with
    | zero =>
      refine ⟨s, pos, r, ?_, hi, Cut.refl _ _ _ _ _⟩
      rw [usergroupsLoop]; simp [Spec.userGroups]
    | succ n =>
      obtain ⟨hl, hd'⟩ := drop_cons_get hd
      obtain ⟨s1, r1, e1, i1, hr1, hp1, hat, c1⟩ := getgrent_line hG h64 hi hl
      have hlg := hG l (List.mem_of_getElem? hl)
      have hdn := (i1.done pos l hp1 hl).1
      obtain ⟨_, _, hg3, ptrs, rst, hmem, hnz, hfa⟩ := grRep_of (Nat.lt_of_lt_of_le (Nat.pos_of_ne_zero ha) le_grStart) hat hdn
      have hu1 := c1.isStr hu (word_seps3 hw) seps3_zero (by omega)
      have hml : ∀ f ∈ l.members, f.length < 2147483647 := by
        intro f hf
        have h1 := width_mem hf
        have hs := grStart_succ (a := a) hl hlg
        have hs' := grStart_le (ls := ls) (a := a) (j := pos + 1)
        have hs'' := le_grStart (ls := ls) (a := a) (j := pos)
        unfold grWidth at hs
        omega
      rw [usergroupsLoop, getgrent_open (by rw [hi.file]; exact ha), e1, Res.ok_bind, if_pos rfl]
      dsimp only
      rw [hmem, isMember_eq hfa hnz hu1 hml, Res.ok_bind, groupsOf_cons]
      by_cases hin : name ∈ l.members
      · rw [if_pos (by simpa using hin), if_pos hin, hg3]
        obtain ⟨s', p', r', e, i', c'⟩ := ih s1 (pos + 1) r1 n (Spec.decValue l.gid :: acc) hd' i1 hu1 hw hr
        refine ⟨s', p', r', ?_, i', c1.trans c' seps3_zero⟩
        rw [e]
        simp only [Spec.userGroups, List.length_append, List.length_cons, List.length_nil, List.reverse_cons, List.length_reverse]
        by_cases hn : (Spec.groupsOf rest name).length < n
        · rw [if_pos hn, if_pos (by omega)]
          simp; omega
        · rw [if_neg hn, if_neg (by omega)]
          simp
      · rw [if_neg (by simpa using hin), if_neg hin, List.nil_append]
        obtain ⟨s', p', r', e, i', c'⟩ := ih s1 (pos + 1) r1 (n + 1) acc hd' i1 hu1 hw hr
        exact ⟨s', p', r', e, i', c1.trans c' seps3_zero⟩

theorem usergroups_opens {m0 : Mem} {a n : Nat} {user : Nat} {s : GrState} (ha : a ≠ 0) (hs : s.f.file = 0) (k : Nat) (acc : List Nat) :
    usergroupsLoop (some (m0, a, n)) user s (k + 1) acc =
      usergroupsLoop (some (m0, a, n)) user { m := m0, f := freshDb a n, gr := s.gr } (k + 1) acc := by
  rw [usergroupsLoop, usergroupsLoop, getgrent_open (s := { m := m0, f := freshDb a n, gr := s.gr }) ha]
  simp only [getgrent, userdbOpen_closed hs]

/-- C55: on a file of well-formed lines, after every history of the other functions, getusergroups answers the numbers of the
groups that have the user as a member, in the order of the file, when the list has more cells than there are such groups; else
-1, with all the cells written.  Nothing but the mapping and the cells of the list is written.  Partial: as C55_group_partial;
a list that fits exactly is answered with -1, see C55_exact_refuted. -/
theorem C55_usergroups_partial {ls : List Spec.GrLine} {m0 : Mem} {a : Nat} {s : GrState} {user max : Nat} {name : List Byte}
    {ops : List Spec.GrOp} (hne : ls ≠ []) (hG : ∀ l ∈ ls, l.Good) (ha : a ≠ 0)
    (h64 : a + (Spec.grText ls).length < 18446744073709551616)
    (hlen : (Spec.grText ls).length < 2147483648) (hT : m0.Holds a (Spec.grText ls))
    (hz : ∀ i, i < 8 * ls.length → m0 (a + (Spec.grText ls).length + i) = some 0#8)
    (hs : s.f.file = 0) (hm : s.gr.mem.length = 64) (hmax : 0 < max) (ho : ∀ op ∈ ops, GNamOk ls a m0 op)
    (hn : GNamOk ls a m0 (.nam user name)) :
    ∃ s1 ws s', grRun (some (m0, a, (Spec.grText ls).length)) s ops = .ok (s1, ws) ∧
      getusergroups (some (m0, a, (Spec.grText ls).length)) s1 user max =
        .ok (s', if (Spec.groupsOf ls name).length < max then (((Spec.groupsOf ls name).length : Int), Spec.groupsOf ls name)
          else (-1, (Spec.groupsOf ls name).take max)) ∧
      ∀ x, (x < a ∨ a + (Spec.grText ls).length + 8 * ls.length ≤ x) → s'.m x = m0 x := by
  obtain ⟨s1, ws, h1, h2, -, -, k, hk⟩ := grRun_inv (k := { opened := false, pos := 0, last := none }) hne hG ha h64 hlen hT hz
    (show HInv ls m0 a s _ from ⟨hs, rfl, hm⟩) ho
  refine ⟨s1, ws, ?_⟩
  suffices h : ∃ s', getusergroups (some (m0, a, (Spec.grText ls).length)) s1 user max =
        .ok (s', Spec.userGroups (Spec.groupsOf ls name) [] max) ∧ GCut ls a m0 s'.m by
    obtain ⟨s', e, c⟩ := h
    refine ⟨s', h1, ?_, ?_⟩
    · rw [e]; simp [Spec.userGroups]
    · intro x hx
      rcases c x with e | ⟨e1, e2, _⟩ | ⟨e1, e2, _⟩
      · exact e
      · omega
      · omega
  obtain ⟨n1, n2, n3, n4⟩ := hn
  unfold HInv at hk
  split at hk
  · obtain ⟨r, i1, -, -, c1⟩ := hk
    obtain ⟨s', p', r', e, i', c'⟩ := usergroupsLoop_eq (kern := some (m0, a, (Spec.grText ls).length)) (user := user) (name := name)
      hG ha h64 hlen ls _ 0 r max [] rfl (ginv_rewind i1) (c1.isStr n1 (word_seps3 n2) seps3_zero (by omega)) n2 n4
    exact ⟨s', by rw [getusergroups, e]; rfl, c1.trans c' seps3_zero⟩
  · obtain ⟨k, rfl⟩ : ∃ k, max = k + 1 := ⟨max - 1, by omega⟩
    obtain ⟨s', p', r', e, i', c'⟩ := usergroupsLoop_eq (kern := some (m0, a, (Spec.grText ls).length)) (user := user) (name := name)
      hG ha h64 hlen ls _ 0 0 (k + 1) [] rfl (ginv_open (gr := s1.gr) hT hz hk.2.2) n1 n2 n4
    refine ⟨s', ?_, c'⟩
    rw [getusergroups, usergroups_opens ha (show (setgrent s1).f.file = 0 from hk.1), show (setgrent s1).gr = s1.gr from rfl, e]
    rfl

/-- C55: getgrouplist adds the given group to these, unless it is one of them; it answers -1 when the list is one cell short or
less.  Partial: when the list is full it writes the cell before the list, see C55_grouplist_refuted. -/
theorem C55_grouplist_partial {ls : List Spec.GrLine} {m0 : Mem} {a : Nat} {s : GrState} {user group max : Nat} {name : List Byte}
    {ops : List Spec.GrOp} (hne : ls ≠ []) (hG : ∀ l ∈ ls, l.Good) (ha : a ≠ 0)
    (h64 : a + (Spec.grText ls).length < 18446744073709551616)
    (hlen : (Spec.grText ls).length < 2147483648) (hT : m0.Holds a (Spec.grText ls))
    (hz : ∀ i, i < 8 * ls.length → m0 (a + (Spec.grText ls).length + i) = some 0#8)
    (hs : s.f.file = 0) (hm : s.gr.mem.length = 64) (ho : ∀ op ∈ ops, GNamOk ls a m0 op)
    (hn : GNamOk ls a m0 (.nam user name)) (hfit : (Spec.groupsOf ls name).length < max) :
    ∃ s1 ws s', grRun (some (m0, a, (Spec.grText ls).length)) s ops = .ok (s1, ws) ∧
      getgrouplist (some (m0, a, (Spec.grText ls).length)) s1 user group max =
        .ok (s', if group ∈ Spec.groupsOf ls name then (((Spec.groupsOf ls name).length : Int), Spec.groupsOf ls name)
          else if (Spec.groupsOf ls name).length + 1 < max then
            (((Spec.groupsOf ls name).length + 1 : Nat), Spec.groupsOf ls name ++ [group])
          else (-1, Spec.groupsOf ls name)) := by
  obtain ⟨s1, ws, s', hr, e, -⟩ := C55_usergroups_partial (max := max) hne hG ha h64 hlen hT hz hs hm (by omega) ho hn
  refine ⟨s1, ws, s', hr, ?_⟩
  rw [if_pos hfit] at e
  rw [getgrouplist, e, Res.ok_bind]
  dsimp only
  by_cases hin : group ∈ Spec.groupsOf ls name
  · rw [if_pos ⟨by omega, hin⟩, if_pos hin]; rfl
  · rw [if_neg (fun h => hin h.2), if_neg hin]
    by_cases h1 : (Spec.groupsOf ls name).length + 1 < max
    · rw [if_neg (by omega), if_pos (by omega), if_pos h1]; rfl
    · rw [if_pos (by omega), if_neg h1]; rfl

/-! ### a file -/

/-- w:x:10:r,u and u::12:u -/
def exWheel : Spec.GrLine := ⟨[119#8], [120#8], [49#8, 48#8], [[114#8], [117#8]]⟩
def exUsers : Spec.GrLine := ⟨[117#8], [], [49#8, 50#8], [[117#8]]⟩

def exGrText : List Byte := Spec.grText [exWheel, exUsers]

def exGrMem : Mem := objects [(4096, exGrText ++ List.replicate 16 0#8), (100, [117#8, 0#8]), (120, [113#8, 0#8])]

def exGrState : GrState := ⟨exGrMem, ⟨0, 0, 0, 0⟩, ⟨0, 0, 0, List.replicate 64 0⟩⟩

def exGrOps : List Spec.GrOp :=
  [.rewind, .gid 99, .next, .rewind, .nam 100 [117#8], .gid 12, .nam 120 [113#8], .rewind, .next, .next, .next, .gid 10]

example : Spec.grAnswers [exWheel, exUsers] { opened := false, pos := 0, last := none } exGrOps =
    [none, none, none, none, some exUsers, some exUsers, none, none, some exWheel, some exUsers, none, some exWheel] := by decide

theorem exGr_names : ∀ op ∈ exGrOps, GNamOk [exWheel, exUsers] 4096 exGrMem op := by
  intro op hop
  simp only [exGrOps, List.mem_cons, List.not_mem_nil, or_false] at hop
  rcases hop with rfl | rfl | rfl | rfl | rfl | rfl | rfl | rfl | rfl | rfl | rfl | rfl
  all_goals first | trivial | exact ⟨⟨by decide, by decide⟩, by decide, by decide, Or.inl (by decide)⟩

example : ∃ s' ws, grRun (some (exGrMem, 4096, exGrText.length)) exGrState exGrOps = .ok (s', ws) ∧
    List.Forall₂ (GrAns s'.m) ws
      [none, none, none, none, some exUsers, some exUsers, none, none, some exWheel, some exUsers, none, some exWheel] := by
  obtain ⟨s', ws, h1, h2, -⟩ := C55_group_partial (ls := [exWheel, exUsers]) (m0 := exGrMem) (a := 4096) (s := exGrState)
    (ops := exGrOps) (by simp) (by decide) (by decide) (by decide) (by decide) (by decide +kernel) (by decide +kernel) rfl rfl
    (fun _ _ => rfl) exGr_names
  exact ⟨s', ws, h1, h2⟩

example : Spec.GrDistinct [exWheel, exUsers] := by
  intro e he e' he'
  simp only [List.mem_cons, List.not_mem_nil, or_false] at he he'
  rcases he with rfl | rfl <;> rcases he' with rfl | rfl <;> decide

example : ∃ s1 ws s', grRun (some (exGrMem, 4096, exGrText.length)) exGrState exGrOps = .ok (s1, ws) ∧
    getusergroups (some (exGrMem, 4096, exGrText.length)) s1 100 5 = .ok (s', 2, [10, 12]) := by
  obtain ⟨s1, ws, s', h0, h, -⟩ := C55_usergroups_partial (ls := [exWheel, exUsers]) (m0 := exGrMem) (a := 4096) (s := exGrState) (user := 100)
    (name := [117#8]) (max := 5) (by simp) (by decide) (by decide) (by decide) (by decide) (by decide +kernel) (by decide +kernel) rfl rfl
    (by decide) exGr_names ⟨⟨by decide, by decide⟩, by decide, by decide, Or.inl (by decide)⟩
  exact ⟨s1, ws, s', h0, h⟩

example : ∃ s1 ws s', grRun (some (exGrMem, 4096, exGrText.length)) exGrState exGrOps = .ok (s1, ws) ∧
    getgrouplist (some (exGrMem, 4096, exGrText.length)) s1 100 7 5 = .ok (s', 3, [10, 12, 7]) := by
  obtain ⟨s1, ws, s', h0, h⟩ := C55_grouplist_partial (ls := [exWheel, exUsers]) (m0 := exGrMem) (a := 4096) (s := exGrState) (user := 100)
    (name := [117#8]) (max := 5) (group := 7) (by simp) (by decide) (by decide) (by decide) (by decide) (by decide +kernel) (by decide +kernel)
    rfl rfl exGr_names ⟨⟨by decide, by decide⟩, by decide, by decide, Or.inl (by decide)⟩ (by decide)
  exact ⟨s1, ws, s', h0, h⟩

/-! ### where the property fails -/

/-- getusergroups finds all groups when the list is long enough for them. -/
def C55_exact_full : Prop :=
  ∀ (ls : List Spec.GrLine) (m0 : Mem) (a : Nat) (s : GrState) (user max : Nat) (name : List Byte), (∀ l ∈ ls, l.Good) → a ≠ 0 →
    a + (Spec.grText ls).length < 18446744073709551616 → (Spec.grText ls).length < 2147483648 → m0.Holds a (Spec.grText ls) →
    (∀ i, i < 8 * ls.length → m0 (a + (Spec.grText ls).length + i) = some 0#8) → s.f.file = 0 → s.gr.mem.length = 64 →
    GNamOk ls a m0 (.nam user name) → (Spec.groupsOf ls name).length ≤ max → 0 < max →
    ∃ s', getusergroups (some (m0, a, (Spec.grText ls).length)) s user max =
      .ok (s', (Spec.groupsOf ls name).length, Spec.groupsOf ls name)

/-- C55: a list with exactly as many cells as the user has groups is answered with -1. -/
theorem C55_exact_refuted : ¬ C55_exact_full := by
  intro h
  have hn : GNamOk [exWheel, exUsers] 4096 exGrMem (.nam 100 [117#8]) :=
    ⟨⟨by decide, by decide⟩, by decide, by decide, Or.inl (by decide)⟩
  obtain ⟨s1, h1⟩ := h [exWheel, exUsers] exGrMem 4096 exGrState 100 2 [117#8] (by decide) (by decide) (by decide) (by decide)
    (by decide +kernel) (by decide +kernel) rfl rfl hn (by decide) (by decide)
  obtain ⟨s1', ws, s2, h0, h2, -⟩ := C55_usergroups_partial (ops := []) (ls := [exWheel, exUsers]) (m0 := exGrMem) (a := 4096) (s := exGrState) (user := 100)
    (name := [117#8]) (max := 2) (by simp) (by decide) (by decide) (by decide) (by decide) (by decide +kernel) (by decide +kernel) rfl rfl
    (by decide) (by simp) hn
  cases h0
  rw [h2, if_neg (by decide)] at h1
  injection h1 with h1
  have h3 : (-1 : Int) = ((Spec.groupsOf [exWheel, exUsers] [117#8]).length : Nat) := congrArg (fun x => x.2.1) h1
  revert h3
  decide

/-- getgrouplist writes only to the list. -/
def C55_grouplist_full : Prop :=
  ∀ (ls : List Spec.GrLine) (m0 : Mem) (a : Nat) (s : GrState) (user group max : Nat) (name : List Byte), (∀ l ∈ ls, l.Good) →
    a ≠ 0 → a + (Spec.grText ls).length < 18446744073709551616 → (Spec.grText ls).length < 2147483648 →
    m0.Holds a (Spec.grText ls) → (∀ i, i < 8 * ls.length → m0 (a + (Spec.grText ls).length + i) = some 0#8) → s.f.file = 0 →
    s.gr.mem.length = 64 → GNamOk ls a m0 (.nam user name) → 0 < max →
    ∃ r, getgrouplist (some (m0, a, (Spec.grText ls).length)) s user group max = .ok r

/-- C55: with as many groups as cells getgrouplist writes the cell before the list. -/
theorem C55_grouplist_refuted : ¬ C55_grouplist_full := by
  intro h
  have hn : GNamOk [exWheel, exUsers] 4096 exGrMem (.nam 100 [117#8]) :=
    ⟨⟨by decide, by decide⟩, by decide, by decide, Or.inl (by decide)⟩
  obtain ⟨r, h1⟩ := h [exWheel, exUsers] exGrMem 4096 exGrState 100 7 2 [117#8] (by decide) (by decide) (by decide) (by decide)
    (by decide +kernel) (by decide +kernel) rfl rfl hn (by decide)
  obtain ⟨s1', ws, s2, h0, h2, -⟩ := C55_usergroups_partial (ops := []) (ls := [exWheel, exUsers]) (m0 := exGrMem) (a := 4096) (s := exGrState) (user := 100)
    (name := [117#8]) (max := 2) (by simp) (by decide) (by decide) (by decide) (by decide) (by decide +kernel) (by decide +kernel) rfl rfl
    (by decide) (by simp) hn
  cases h0
  rw [if_neg (by decide)] at h2
  rw [getgrouplist, h2, Res.ok_bind] at h1
  dsimp only at h1
  rw [if_neg (by decide), if_neg (by decide), if_neg (by decide)] at h1
  cases h1

/-- getgrent represents every well-formed line, also one without members. -/
def C55_nomembers_full : Prop :=
  ∀ (l : Spec.GrLine) (m0 : Mem) (a : Nat) (s : GrState), Spec.Word l.name → l.name ≠ [] → Spec.Word l.passwd → Spec.Number l.gid →
    l.members = [] → a ≠ 0 → a + (Spec.grText [l]).length < 18446744073709551616 → m0.Holds a (Spec.grText [l]) →
    (∀ i, i < 8 → m0 (a + (Spec.grText [l]).length + i) = some 0#8) → s.f.file = 0 → s.gr.mem.length = 64 →
    ∃ s', getgrent (some (m0, a, (Spec.grText [l]).length)) s = .ok (s', true) ∧ GrRep s'.m s'.gr l

/-- C55: the line `w:x:10:` gets one member, the empty string. -/
theorem C55_nomembers_refuted : ¬ C55_nomembers_full := by
  intro h
  let l : Spec.GrLine := ⟨[119#8], [120#8], [49#8, 48#8], []⟩
  let m0 : Mem := object 4096 (Spec.grText [l] ++ List.replicate 8 0#8)
  obtain ⟨s1, h1, h2⟩ := h l m0 4096 exGrState (by decide) (by decide) (by decide) (by decide) rfl (by decide) (by decide)
    (by decide +kernel) (by decide +kernel) rfl rfl
  have hi : GInv [{ l with members := [[]] }] 4096 { m := m0, f := freshDb 4096 (Spec.grText [l]).length, gr := exGrState.gr } 0 0 :=
    ginv_open (ls := [{ l with members := [[]] }]) (by decide +kernel) (by decide +kernel) rfl
  obtain ⟨s2, r2, e2, i2, _, hp, hat, _⟩ := getgrent_line (by decide) (by decide) hi rfl
  have heq : getgrent (some (m0, 4096, (Spec.grText [l]).length)) exGrState = .ok (s2, true) := by
    unfold getgrent
    rw [userdbOpen_closed (show exGrState.f.file = 0 from rfl)]
    exact e2
  rw [heq] at h1
  cases h1
  obtain ⟨_, _, _, ptrs, rest, hm, _, hf⟩ := h2
  cases hf
  have h0 := hat.2.2.2.2.1
  rw [hm] at h0
  revert h0
  simp [l, addrs]

theorem loadPtr_none {m : Mem} {p : Nat} (h : m p = none) : loadPtr m p = .ub := by
  unfold loadPtr
  rw [show (8 : Nat) = 7 + 1 from rfl, loadBytes, load_none h]; rfl

/-- A line behind which there is no memory. -/
theorem getgrentOpen_page {m : Mem} {f : Userdb} {gr : Group} {p cell : Nat} {l : Spec.GrLine} (hg : l.Good)
    (hp : f.p = p) (hp2 : f.p2 = cell) (ht : m.Holds p l.text) (hfin : p + grWidth l ≤ f.file + f.size)
    (hcell : f.file + f.size ≤ cell) (hz : m cell = none) : getgrentOpen m f gr = .ub := by
  obtain ⟨g1, g2, g3, g4, g5, g6, g7⟩ := hg
  have hF : Flds m p [l.name, l.passwd, l.gid, Spec.commas l.members] :=
    flds_lineText ht (by
      intro x hx
      simp only [List.mem_cons, List.not_mem_nil, or_false] at hx
      rcases hx with rfl | rfl | rfl | rfl
      · exact word_field g1
      · exact word_field g3
      · exact word_field (number_word g4)
      · exact commas_field g6)
  have hlc := length_commas g5
  have hw : grWidth l = l.name.length + 1 + (l.passwd.length + 1 + (l.gid.length + 1 + width l.members)) := rfl
  have f1 := hF.1
  obtain ⟨b1, hb1, hb1'⟩ := f1.2.2
  have e1 := tokenS_fld (fin := f.file + f.size) f1 (by omega)
  have c1 : Cut seps p (p + grWidth l) (p + grWidth l) m (m.upd (p + l.name.length) 0#8) := Cut.upd hb1 hb1' (by omega) (by omega)
  generalize hm1 : m.upd (p + l.name.length) 0#8 = m1 at e1 c1
  have s1 : m1.IsStr p l.name := by
    rw [← hm1]
    exact ⟨f1.1.upd _ (by omega), upd_same _ _ _, fun x hx => (g1 x hx).1⟩
  have F2 := hF.2.cut c1 (flds_clean hF.2) (by simp; omega)
  obtain ⟨b2, hb2, hb2'⟩ := F2.1.2.2
  have e2 := tokenS_fld (fin := f.file + f.size) F2.1 (by omega)
  have c2 : Cut seps p (p + grWidth l) (p + grWidth l) m1 (m1.upd (p + l.name.length + 1 + l.passwd.length) 0#8) :=
    Cut.upd hb2 hb2' (by omega) (by omega)
  generalize hm2 : m1.upd (p + l.name.length + 1 + l.passwd.length) 0#8 = m2 at e2 c2
  have F3 := F2.2.cut c2 (flds_clean F2.2) (by simp; omega)
  have e3 := tokenI_fld (fin := f.file + f.size) F3.1 (by omega) g4
  obtain ⟨b, hb, hb0⟩ := isStr_first_ne s1 g2
  unfold getgrentOpen
  rw [hp, if_neg (by omega), e1, Res.ok_bind]; dsimp only
  rw [hb, Res.ok_bind, if_neg hb0, e2, Res.ok_bind]; dsimp only
  rw [e3, Res.ok_bind]; dsimp only
  unfold grMembers
  rw [hp2, loadPtr_none]
  · rfl
  · rw [(c1.trans c2 seps_zero).outside (by omega)]; exact hz

/-- A group with a long name. -/
def longLine (n : Nat) : Spec.GrLine := ⟨List.replicate n 103#8, [120#8], [49#8], [[117#8]]⟩

theorem length_longLine (n : Nat) : (Spec.grText [longLine n]).length = n + 7 := by
  simp [longLine, Spec.grText, Spec.GrLine.text, Spec.lineText, Spec.commas]

theorem grWidth_longLine (n : Nat) : grWidth (longLine n) = n + 7 := by
  simp [longLine, grWidth]

theorem good_longLine {n : Nat} (h : n ≠ 0) : (longLine n).Good := by
  refine ⟨?_, by simp [longLine, h], show Spec.Word [120#8] by decide, show Spec.Number [49#8] by decide, by simp [longLine],
    show ∀ f ∈ [[117#8]], Spec.Word f by decide, by simp [longLine]⟩
  intro b hb
  simp only [longLine, List.mem_replicate] at hb
  rw [hb.2]; decide

/-- Every file, mapped with its last page filled with zeros, can be read. -/
def C55_page_full : Prop :=
  ∀ (ls : List Spec.GrLine) (m0 : Mem) (page : Nat) (s : GrState), ls ≠ [] → (∀ l ∈ ls, l.Good) → page ≠ 0 →
    page * 4096 + (Spec.grText ls).length < 18446744073709551616 → m0.Holds (page * 4096) (Spec.grText ls) →
    (∀ x, page * 4096 + (Spec.grText ls).length ≤ x → x < page * 4096 + ((Spec.grText ls).length + 4095) / 4096 * 4096 →
      m0 x = some 0#8) → s.f.file = 0 → s.gr.mem.length = 64 →
    ∃ r, getgrent (some (m0, page * 4096, (Spec.grText ls).length)) s = .ok r

/-- C55: when the size of the file is a multiple of the page size, getgrent reads memory behind the mapped file, where it keeps
a table of line ends. -/
theorem C55_page_refuted : ¬ C55_page_full := by
  intro h
  obtain ⟨n, hn⟩ : ∃ n, n = 4089 := ⟨_, rfl⟩
  have hlen := length_longLine n
  have hg := good_longLine (n := n) (by omega)
  have hw := grWidth_longLine n
  obtain ⟨r, hr⟩ := h [longLine n] (object 4096 (Spec.grText [longLine n])) 1 exGrState (by simp) (by simpa using hg) (by decide)
    (by omega) (by rw [Nat.one_mul]; exact holds_object _ _) (by intro x h1 h2; omega) rfl rfl
  unfold getgrent at hr
  rw [userdbOpen_closed (show exGrState.f.file = 0 from rfl)] at hr
  dsimp only at hr
  have hub := getgrentOpen_page (m := object 4096 (Spec.grText [longLine n])) (f := freshDb 4096 (Spec.grText [longLine n]).length)
    (gr := exGrState.gr) (p := 4096) (cell := 4096 + (Spec.grText [longLine n]).length) hg rfl rfl
    (by simpa [Spec.grText] using holds_object 4096 (Spec.grText [longLine n]))
    (show 4096 + grWidth (longLine n) ≤ 4096 + (Spec.grText [longLine n]).length by omega) (Nat.le_refl _)
    (by unfold object; rw [if_pos (by omega), Nat.add_sub_cancel_left]; simp)
  rw [Nat.one_mul, hub] at hr
  cases hr

/-- C55 (outside of the lines of the format): at an empty line, and at one without a name, getgrent answers that there are no more groups, though
there are: the next call goes on behind it. -/
theorem C55_emptyline_refuted {kern : Mapping} {s : GrState} {b : Byte} (hf : s.f.file ≠ 0) (hp : s.f.p < s.f.file + s.f.size)
    (hb : s.m s.f.p = some b) (h : b = 10#8 ∨ b = 58#8) :
    getgrent kern s = .ok ({ s with m := s.m.upd s.f.p 0#8, f := { s.f with p := s.f.p + 1 } }, false) := by
  rw [getgrent_open hf]
  unfold getgrentOpen
  have f1 : Fld s.m s.f.p [] := ⟨by intro i hi; simp at hi, by intro x hx; simp at hx, b, hb, Or.inl (by rcases h with rfl | rfl <;> decide)⟩
  rw [if_neg (by omega), tokenS_fld f1 hp, Res.ok_bind]
  simp only [List.length_nil, Nat.add_zero]
  rw [load_some (upd_same _ _ _), Res.ok_bind, if_pos rfl]
  rfl

/-- C55: two lines with an empty one between them; the first was read. -/
example : ∃ s', getgrent none ⟨object 4096 [103, 58, 120, 58, 49, 58, 10, 10, 104, 58, 120, 58, 50, 58, 10], ⟨4096, 4103, 4111, 15⟩, exGrState.gr⟩ = .ok (s', false) ∧
    s'.f.p = 4104 ∧ s'.m 4104 = some 104#8 :=
  ⟨_, C55_emptyline_refuted (b := 10#8) (by decide) (by decide) (by decide +kernel) (Or.inl rfl), rfl, by decide +kernel⟩

/-- The last line of a file needs no newline. -/
def C55_newline_full : Prop :=
  ∀ (l : Spec.GrLine) (m0 : Mem) (a : Nat) (s : GrState), l.Good → a ≠ 0 → a + l.text.length < 18446744073709551616 →
    m0.Holds a l.text.dropLast → (∀ i, i < 8 → m0 (a + l.text.dropLast.length + i) = some 0#8) → s.f.file = 0 →
    s.gr.mem.length = 64 →
    ∃ s', getgrent (some (m0, a, l.text.dropLast.length)) s = .ok (s', true) ∧ GrRep s'.m s'.gr l

/-- C55: in the file `g:x:1:u` without newline the end of the last member is overwritten: the table of line ends starts right
behind it. -/
theorem C55_newline_refuted : ¬ C55_newline_full := by
  intro h
  let l : Spec.GrLine := ⟨[103#8], [120#8], [49#8], [[117#8]]⟩
  let m0 : Mem := object 4096 (l.text.dropLast ++ List.replicate 8 0#8)
  obtain ⟨s1, h1, h2⟩ := h l m0 4096 exGrState (by decide) (by decide) (by decide) (by decide +kernel) (by decide +kernel) rfl rfl
  have hlen : l.text.dropLast.length = 7 := by decide
  rw [hlen] at h1
  unfold getgrent at h1
  rw [userdbOpen_closed (show exGrState.f.file = 0 from rfl)] at h1
  dsimp only at h1
  have f1 : Fld m0 4096 [103#8] := ⟨by decide +kernel, by decide, 58#8, by decide +kernel, by decide⟩
  have e1 := tokenS_fld (fin := 4103) f1 (by decide)
  obtain ⟨m1, hm1⟩ : ∃ m1, m1 = m0.upd (4096 + [103#8].length) 0#8 := ⟨_, rfl⟩
  rw [← hm1, show 4096 + [103#8].length + 1 = 4098 from rfl] at e1
  have f2 : Fld m1 4098 [120#8] :=
    ⟨by subst hm1; decide +kernel, by decide, 58#8, by subst hm1; decide +kernel, by decide⟩
  have e2 := tokenS_fld (fin := 4103) f2 (by decide)
  obtain ⟨m2, hm2⟩ : ∃ m2, m2 = m1.upd (4098 + [120#8].length) 0#8 := ⟨_, rfl⟩
  rw [← hm2, show 4098 + [120#8].length + 1 = 4100 from rfl] at e2
  have f3 : Fld m2 4100 [49#8] :=
    ⟨by subst hm2; subst hm1; decide +kernel, by decide, 58#8, by subst hm2; subst hm1; decide +kernel, by decide⟩
  have e3 := tokenI_fld (fin := 4103) f3 (by decide) (by decide)
  rw [show 4100 + [49#8].length + 1 = 4102 from rfl] at e3
  have hb : m1.load 4096 = .ok 103#8 := by subst hm1; exact load_some (by decide +kernel)
  have hu : m2.load 4102 = .ok 117#8 := by subst hm2; subst hm1; exact load_some (by decide +kernel)
  have hz : m2.load 4103 = .ok 0#8 := by subst hm2; subst hm1; exact load_some (by decide +kernel)
  have hc : m2.Holds 4103 (natBytes 8 0) := by subst hm2; subst hm1; decide +kernel
  have e4 : tokenS 4103 m2 4102 = .ok (m2, 4104) := by
    unfold tokenS
    rw [tokenSLoop, if_pos (by decide), hu, Res.ok_bind, if_neg (by decide), if_neg (by decide), tokenSLoop, if_neg (by decide)]
    rfl
  have e5 : membersLoop 4104 m2 exGrState.gr.mem 4102 4102 0 = .ok (m2, exGrState.gr.mem.set 0 4102, some 1) := by
    rw [membersLoop, if_pos (by decide), hu, Res.ok_bind, if_neg (by decide)]
    show (do let b ← m2.load 4102; _) = _
    rw [hu, Res.ok_bind, if_neg (by decide), membersLoop, if_pos (by decide), hz, Res.ok_bind, if_neg (by decide)]
    show (do let b ← m2.load 4103; _) = _
    rw [hz, Res.ok_bind, if_pos rfl, setMem_ok (by decide), Res.ok_bind, if_neg (by decide), membersLoop, if_neg (by decide)]
    rfl
  have hfile : (freshDb 4096 7).file + (freshDb 4096 7).size = 4103 := rfl
  have hpp : (freshDb 4096 7).p = 4096 := rfl
  have hp2 : (freshDb 4096 7).p2 = 4103 := rfl
  unfold getgrentOpen at h1
  rw [hfile, hpp, if_neg (by decide), e1, Res.ok_bind] at h1; dsimp only at h1
  rw [hb, Res.ok_bind, if_neg (by decide), e2, Res.ok_bind] at h1; dsimp only at h1
  rw [e3, Res.ok_bind] at h1; dsimp only at h1
  unfold grMembers at h1
  rw [hfile, hp2, loadPtr_eq hc (by decide), Res.ok_bind, if_pos rfl, e4, Res.ok_bind] at h1; dsimp only at h1
  rw [e5, Res.ok_bind] at h1
  unfold grFirst at h1
  dsimp only at h1
  rw [show 4096 + 7 = 4103 from rfl, storePtr_eq (hc.mapped.mono (by decide)), Res.ok_bind, setMem_ok (by decide), Res.ok_bind] at h1
  cases h1
  obtain ⟨_, _, _, ptrs, rest, hm, _, hf⟩ := h2
  cases hf with
  | cons hs hn =>
    cases hn
    have hp := congrArg List.head? hm
    cases hp
    have h8 : (m2.write 4103 (natBytes 8 4104)) 4103 = some 0#8 := hs.2.1
    have hw := write_holds m2 4103 (natBytes 8 4104) 0 (by decide)
    rw [Nat.add_zero, h8] at hw
    revert hw
    decide

/-- C55: the fifth call of the example has a plain answer. -/
example : (Spec.grAnswers [exWheel, exUsers] { opened := false, pos := 0, last := none } exGrOps)[4]? = some (some exUsers) :=
  C55_group_plain (by
      intro e he e' he'
      simp only [List.mem_cons, List.not_mem_nil, or_false] at he he'
      rcases he with rfl | rfl <;> rcases he' with rfl | rfl <;> decide) (by simp) 4 (.nam 100 [117#8]) (some exUsers) rfl (by decide)

end Minilib

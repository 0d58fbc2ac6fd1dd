import Verif.Model.Exec
import Verif.Spec.Exec
import Verif.Props.Str
/-
C57: the search in PATH.  C72: execl.  C73: system and vexec.
-/

set_option autoImplicit false

namespace Minilib
open Mem Spec Lean.Order

theorem cstr_eq {m : Mem} : ∀ {s : List Byte} {p : Nat}, m.IsStr p s → cstr m p = .ok s
  | [], p, h => by
    rw [cstr, load_some (isStr_nil.1 h)]
    rfl
  | b :: s, p, h => by
    obtain ⟨h1, h2, h3⟩ := isStr_cons.1 h
    rw [cstr, load_some h1]
    simp only [Res.ok_bind]
    rw [if_neg h2, cstr_eq h3]
    rfl

theorem split_cases : ∀ s : List Byte, (splitPath s = [s] ∧ 58#8 ∉ s) ∨
    ∃ e t, s = e ++ 58#8 :: t ∧ 58#8 ∉ e ∧ splitPath s = e :: splitPath t
  | [] => Or.inl ⟨rfl, by simp⟩
  | b :: s => by
    rw [splitPath]
    by_cases h : b = 58#8
    · rw [if_pos h]
      exact Or.inr ⟨[], s, by rw [h]; rfl, by simp, rfl⟩
    · rw [if_neg h]
      rcases split_cases s with ⟨h1, h2⟩ | ⟨e, t, h1, h2, h3⟩
      · rw [h1]
        refine Or.inl ⟨rfl, ?_⟩
        simp only [List.mem_cons, not_or]
        exact ⟨fun e => h e.symm, h2⟩
      · rw [h3]
        refine Or.inr ⟨b :: e, t, by rw [h1]; rfl, ?_, rfl⟩
        simp only [List.mem_cons, not_or]
        exact ⟨fun e => h e.symm, h2⟩

/-- Copying the characters of an element, up to the last one. -/
theorem whereLoop_chars {access : List Byte → Bool} {file buf : Nat} : ∀ {cs : List Byte} {m : Mem} {path p : Nat} {c : Byte} {rest : List Byte},
    m.IsStr path (cs ++ c :: rest) → 58#8 ∉ cs → c ≠ 58#8 → m.Mapped p cs.length → Disjoint p cs.length path ((cs ++ c :: rest).length + 1) →
    whereLoop access file buf m path p = whereLoop access file buf (m.write p cs) (path + cs.length) (p + cs.length)
  | [], m, path, p, c, rest, _, _, _, _, _ => by simp [write_nil]
  | b :: cs, m, path, p, c, rest, hs, h58, hc, hm, hd => by
    rw [List.cons_append] at hs
    obtain ⟨h1, h2, h3⟩ := isStr_cons.1 hs
    obtain ⟨x, hx⟩ := hm 0 (by simp)
    rw [Nat.add_zero] at hx
    have hp : p < path ∨ path + (cs ++ c :: rest).length + 2 ≤ p := by
      have h := hd p
      simp only [List.length_cons, List.cons_append] at h
      omega
    have h3' : (m.write p [b]).IsStr (path + 1) (cs ++ c :: rest) := h3.write (by
      simp only [List.length_append, List.length_cons, List.length_nil] at hp ⊢
      rcases hp with hp | hp
      · left; omega
      · right; omega)
    have hnext : ∃ d, (m.write p [b]).load (path + 1) = .ok d ∧ d ≠ 58#8 ∧ d ≠ 0#8 := by
      cases cs with
      | nil =>
        obtain ⟨g1, g2, _⟩ := isStr_cons.1 h3'
        exact ⟨c, load_some g1, hc, g2⟩
      | cons d cs =>
        obtain ⟨g1, g2, _⟩ := isStr_cons.1 h3'
        exact ⟨d, load_some g1, by rintro rfl; simp at h58, g2⟩
    obtain ⟨d, hd1, hd2, hd3⟩ := hnext
    rw [whereLoop, load_some h1]
    simp only [Res.ok_bind]
    rw [store_some hx]
    simp only [Res.ok_bind]
    rw [← write_singleton, hd1]
    simp only [Res.ok_bind]
    rw [if_neg (by rintro (h | h); exact hd2 h; exact hd3 h)]
    have ih := whereLoop_chars (access := access) (file := file) (buf := buf) (m := m.write p [b]) (path := path + 1) (p := p + 1) (cs := cs)
      (c := c) (rest := rest) h3' (fun h => h58 (by simp [h])) hc
      (by
        have h4 : m.Mapped p (cs.length + 1) := hm
        exact (mapped_succ.1 h4).2.write _ _)
      (by
        intro a
        have := hd a
        simp only [List.length_cons, List.cons_append] at this
        omega)
    rw [ih, List.length_cons]
    rw [show b :: cs = [b] ++ cs from rfl, write_append, List.length_singleton, show path + 1 + cs.length = path + (cs.length + 1) by omega,
      show p + 1 + cs.length = p + (cs.length + 1) by omega]

/-- One element of PATH. -/
theorem whereLoop_elem {access : List Byte → Bool} {file buf : Nat} {m : Mem} {path : Nat} {e rest name : List Byte}
    (hs : m.IsStr path (e ++ rest)) (hrest : rest = [] ∨ ∃ t, rest = 58#8 :: t) (hf : m.IsStr file name) (hne : e ≠ []) (h58 : 58#8 ∉ e)
    (hm : m.Mapped buf (e.length + name.length + 2)) (d1 : Disjoint buf (e.length + name.length + 2) path ((e ++ rest).length + 1))
    (d2 : Disjoint buf (e.length + name.length + 2) file (name.length + 1)) :
    whereLoop access file buf m path buf =
      (if access (e ++ 47#8 :: name) = true then .ok (m.write buf (e ++ 47#8 :: name ++ [0#8]), 1)
       else if rest = [] then .ok (m.write buf (e ++ 47#8 :: name ++ [0#8]), 0)
       else whereLoop access file buf (m.write buf (e ++ 47#8 :: name ++ [0#8])) (path + e.length + 1) buf) := by
  obtain ⟨cs, c, rfl⟩ : ∃ cs c, e = cs ++ [c] := ⟨e.dropLast, e.getLast hne, (List.dropLast_concat_getLast hne).symm⟩
  simp only [List.length_append, List.length_singleton] at hm d1 d2
  rw [List.append_assoc, List.singleton_append] at hs
  simp only [List.mem_append, List.mem_singleton, not_or] at h58
  obtain ⟨hcs, hc⟩ := h58
  have hpos : buf + (cs.length + 1 + name.length + 2) ≤ path ∨ path + cs.length + rest.length + 2 ≤ buf := by
    rcases Nat.lt_or_ge path buf with h | h
    · rcases Nat.lt_or_ge (path + cs.length + rest.length + 1) buf with h5 | h5
      · right; omega
      · have := d1 buf; omega
    · have := d1 path; omega
  have hfile : buf + (cs.length + 1 + name.length + 2) ≤ file ∨ file + name.length + 1 ≤ buf := by
    rcases Nat.lt_or_ge file buf with h | h
    · rcases Nat.lt_or_ge (file + name.length) buf with h5 | h5
      · right; omega
      · have := d2 buf; omega
    · have := d2 file; omega
  rw [whereLoop_chars (access := access) (file := file) (buf := buf) (cs := cs) (c := c) (rest := rest) hs hcs (fun e => hc e.symm)
    (hm.mono (by omega)) (by
      intro a
      have := d1 a
      simp only [List.length_append, List.length_cons]
      omega)]
  -- the last character
  have hs1 : (m.write buf cs).IsStr path (cs ++ c :: rest) := hs.write (by simp only [List.length_append, List.length_cons]; omega)
  obtain ⟨g1, g2⟩ := isStr_iff.1 hs1
  have g3 : (m.write buf cs).IsStr (path + cs.length) (c :: rest) := by
    rw [List.append_assoc] at g1
    exact isStr_iff.2 ⟨(holds_append.1 g1).2, fun b hb => g2 b (by simp only [List.mem_append]; exact Or.inr hb)⟩
  obtain ⟨k1, k2, k3⟩ := isStr_cons.1 g3
  rw [whereLoop, load_some k1]
  simp only [Res.ok_bind]
  obtain ⟨x, hx⟩ := (hm.write buf cs) cs.length (by omega)
  rw [store_some hx]
  simp only [Res.ok_bind]
  rw [← write_singleton, ← write_append]
  have hR : ∀ l : List Byte, l.length ≤ cs.length + 1 + name.length + 2 → (m.write buf l).IsStr (path + cs.length + 1) rest := by
    intro l hl
    obtain ⟨q1, q2⟩ := isStr_iff.1 hs
    have : m.IsStr (path + cs.length + 1) rest := by
      rw [show cs ++ c :: rest ++ [0#8] = (cs ++ [c]) ++ (rest ++ [0#8]) by simp] at q1
      have := (holds_append.1 q1).2
      simp only [List.length_append, List.length_singleton] at this
      exact isStr_iff.2 ⟨by rw [Nat.add_assoc]; exact this, fun b hb => q2 b (by simp [hb])⟩
    exact this.write (by omega)
  have hload : ∀ l : List Byte, l.length ≤ cs.length + 1 + name.length + 2 →
      ∃ d, (m.write buf l).load (path + cs.length + 1) = .ok d ∧ (d = 58#8 ∨ d = 0#8) ∧ (d = 0#8 ↔ rest = []) := by
    intro l hl
    rcases hrest with h | ⟨t, h⟩
    · subst h
      exact ⟨0#8, load_some (isStr_nil.1 (hR l hl)), Or.inr rfl, by simp⟩
    · subst h
      exact ⟨58#8, load_some (isStr_cons.1 (hR l hl)).1, Or.inl rfl, by simp⟩
  obtain ⟨d, hd1, hd2, _⟩ := hload (cs ++ [c]) (by simp; omega)
  rw [hd1]
  simp only [Res.ok_bind]
  rw [if_pos hd2]
  obtain ⟨y, hy⟩ := (hm.write buf (cs ++ [c])) (cs.length + 1) (by omega)
  rw [store_some (c := y) (by rw [Nat.add_assoc]; exact hy)]
  simp only [Res.ok_bind]
  rw [← write_singleton, show buf + cs.length + 1 = buf + (cs ++ [c]).length by simp; omega, ← write_append]
  have hfs : (m.write buf (cs ++ [c] ++ [47#8])).IsStr file name := hf.write (by simp only [List.length_append, List.length_singleton]; omega)
  rw [stpcpyLoop_eq hfs (by
      have h4 : m.Mapped (buf + cs.length + 2) (name.length + 1) := by
        intro i hi
        have := hm (cs.length + 2 + i) (by omega)
        rw [show buf + cs.length + 2 + i = buf + (cs.length + 2 + i) by omega]; exact this
      exact h4.write _ _) (by intro a; have := d2 a; omega)]
  simp only [Res.ok_bind]
  rw [show buf + cs.length + 2 = buf + (cs ++ [c] ++ [47#8]).length by simp; omega, ← write_append]
  have hl : cs ++ [c] ++ [47#8] ++ (name ++ [0#8]) = cs ++ [c] ++ 47#8 :: name ++ [0#8] := by simp
  rw [hl]
  have hstr : (m.write buf (cs ++ [c] ++ 47#8 :: name ++ [0#8])).IsStr buf (cs ++ [c] ++ 47#8 :: name) := by
    refine isStr_iff.2 ⟨write_holds _ _ _, ?_⟩
    intro b hb
    simp only [List.mem_append, List.mem_cons, List.not_mem_nil, or_false] at hb
    rcases hb with (hb | hb) | hb | hb
    · exact g2 b (by simp [hb])
    · rw [hb]; exact k2
    · rw [hb]; decide
    · exact (isStr_iff.1 hf).2 b hb
  rw [cstr_eq hstr]
  simp only [Res.ok_bind]
  by_cases ha : access (cs ++ [c] ++ 47#8 :: name) = true
  · rw [if_pos ha, if_pos ha]; rfl
  · rw [if_neg ha, if_neg ha]
    obtain ⟨d', hd1', _, hd3'⟩ := hload (cs ++ [c] ++ 47#8 :: name ++ [0#8]) (by simp; omega)
    rw [hd1']
    simp only [Res.ok_bind]
    by_cases hr : rest = []
    · rw [if_pos (hd3'.2 hr), if_pos hr]; rfl
    · rw [if_neg (fun e => hr (hd3'.1 e)), if_neg hr]
      simp only [List.length_append, List.length_singleton]
      rw [show path + cs.length + 2 = path + (cs.length + 1) + 1 by omega]

/-- C57 in full for `where`. -/
def C57_full : Prop := ∀ (access : List Byte → Bool) (m : Mem) (file buf path N : Nat) (name s : List Byte), m.IsStr file name → m.IsStr path s →
  m.Mapped buf N → (∀ e ∈ splitPath s, (candidate name e).length < N) → Disjoint buf N path (s.length + 1) → Disjoint buf N file (name.length + 1) →
  ∃ m', «where» access m file buf path = .ok (m', if (search access name (splitPath s)).isSome then 1 else 0) ∧
    ∀ t, search access name (splitPath s) = some t → m'.IsStr buf t

theorem whereLoop_eq {access : List Byte → Bool} {file buf N : Nat} {name : List Byte} : ∀ (n : Nat) {m : Mem} {path : Nat} {s : List Byte},
    s.length ≤ n → m.IsStr path s → m.IsStr file name → m.Mapped buf N → (∀ e ∈ splitPath s, e.length + name.length + 2 ≤ N) →
    (∀ e ∈ splitPath s, e ≠ []) → Disjoint buf N path (s.length + 1) → Disjoint buf N file (name.length + 1) →
    ∃ m', whereLoop access file buf m path buf = .ok (m', if (search access name (splitPath s)).isSome then 1 else 0) ∧
      (∀ t, search access name (splitPath s) = some t → m'.IsStr buf t) ∧ (∀ a, a < buf ∨ buf + N ≤ a → m' a = m a)
  | n, m, path, s, hn, hs, hf, hm, hfit, hne, d1, d2 => by
    have hcut : ∃ e rest, s = e ++ rest ∧ (rest = [] ∨ ∃ t, rest = 58#8 :: t) ∧ 58#8 ∉ e ∧
        splitPath s = e :: (if rest = [] then [] else splitPath rest.tail) := by
      rcases split_cases s with ⟨h1, h2⟩ | ⟨e, t, h1, h2, h3⟩
      · exact ⟨s, [], by simp, Or.inl rfl, h2, by rw [h1]; rfl⟩
      · exact ⟨e, 58#8 :: t, h1, Or.inr ⟨t, rfl⟩, h2, by rw [h3]; rfl⟩
    obtain ⟨e, rest, hse, hrest, h58, hsp⟩ := hcut
    rw [hsp] at hfit hne
    have hfe := hfit e (by simp)
    have hee := hne e (by simp)
    subst hse
    have he0 : 0 < e.length := List.length_pos_iff.2 hee
    rw [whereLoop_elem hs hrest hf hee h58 (hm.mono hfe) (by intro a; have := d1 a; omega) (by intro a; have := d2 a; omega)]
    have hcand : candidate name e = e ++ 47#8 :: name := by unfold candidate; rw [if_neg hee]
    have hlen : (e ++ 47#8 :: name ++ [0#8]).length = e.length + name.length + 2 := by simp; omega
    have hframe : ∀ a, a < buf ∨ buf + N ≤ a → (m.write buf (e ++ 47#8 :: name ++ [0#8])) a = m a := by
      intro a ha
      exact write_outside _ _ _ _ (by rw [hlen]; omega)
    have hsearch : search access name (splitPath (e ++ rest)) =
        if access (e ++ 47#8 :: name) = true then some (e ++ 47#8 :: name)
        else if rest = [] then none else search access name (splitPath rest.tail) := by
      rw [hsp]
      unfold search
      rw [List.map_cons, List.find?_cons, hcand]
      by_cases ha : access (e ++ 47#8 :: name) = true
      · rw [ha, if_pos rfl]
      · rw [if_neg ha]
        simp only [ha]
        by_cases hr : rest = []
        · rw [if_pos hr, if_pos hr]; rfl
        · rw [if_neg hr, if_neg hr]
    rw [hsearch]
    by_cases ha : access (e ++ 47#8 :: name) = true
    · rw [if_pos ha, if_pos ha]
      refine ⟨_, rfl, ?_, hframe⟩
      intro t ht
      simp only [Option.some.injEq] at ht
      subst ht
      refine isStr_iff.2 ⟨write_holds _ _ _, ?_⟩
      intro b hb
      simp only [List.mem_append, List.mem_cons] at hb
      rcases hb with hb | hb | hb
      · exact (isStr_iff.1 hs).2 b (by simp [hb])
      · rw [hb]; decide
      · exact (isStr_iff.1 hf).2 b hb
    · rw [if_neg ha, if_neg ha]
      by_cases hr : rest = []
      · rw [if_pos hr, if_pos hr]
        exact ⟨_, rfl, (by simp), hframe⟩
      · rw [if_neg hr, if_neg hr]
        obtain ⟨t, ht⟩ := hrest.resolve_left hr
        subst ht
        rw [if_neg hr] at hfit hne
        rw [List.tail_cons] at hfit hne ⊢
        have hpos : buf + N ≤ path ∨ path + (e ++ 58#8 :: t).length + 1 ≤ buf := by
          rcases Nat.lt_or_ge path buf with h | h
          · rcases Nat.lt_or_ge (path + (e ++ 58#8 :: t).length) buf with h5 | h5
            · right; omega
            · have := d1 buf; omega
          · have := d1 path; omega
        simp only [List.length_append, List.length_cons] at hpos hn
        have hs2 : (m.write buf (e ++ 47#8 :: name ++ [0#8])).IsStr (path + e.length + 1) t := by
          obtain ⟨q1, q2⟩ := isStr_iff.1 hs
          have : m.IsStr (path + e.length + 1) t := by
            rw [show e ++ 58#8 :: t ++ [0#8] = (e ++ [58#8]) ++ (t ++ [0#8]) by simp] at q1
            have := (holds_append.1 q1).2
            simp only [List.length_append, List.length_singleton] at this
            exact isStr_iff.2 ⟨by rw [Nat.add_assoc]; exact this, fun b hb => q2 b (by simp [hb])⟩
          exact this.write (by rw [hlen]; omega)
        have hf2 : (m.write buf (e ++ 47#8 :: name ++ [0#8])).IsStr file name := by
          refine hf.write ?_
          rw [hlen]
          rcases Nat.lt_or_ge file buf with h | h
          · rcases Nat.lt_or_ge (file + name.length) buf with h5 | h5
            · right; omega
            · have := d2 buf; omega
          · have := d2 file; omega
        match n, hn with
        | n + 1, hn =>
        obtain ⟨m', r1, r2, r3⟩ := whereLoop_eq n (access := access) (s := t) (by omega) hs2 hf2 (hm.write _ _)
          (fun x hx => hfit x (by simp [hx])) (fun x hx => hne x (by simp [hx]))
          (by intro a; have := d1 a; simp only [List.length_append, List.length_cons] at this; omega) d2
        exact ⟨m', r1, r2, fun a ha => by rw [r3 a ha, hframe a ha]⟩

/-- C57 (partial: no empty element in PATH, and room for every path that is tried): `where` looks into the directories of PATH in
order and stops at the first one with an accessible file of this name, whose path it leaves in the buffer. -/
theorem C57_where_partial {access : List Byte → Bool} {m : Mem} {file buf path N : Nat} {name s : List Byte} (hf : m.IsStr file name)
    (hs : m.IsStr path s) (hm : m.Mapped buf N) (hfit : ∀ e ∈ splitPath s, e.length + name.length + 2 ≤ N) (hne : ∀ e ∈ splitPath s, e ≠ [])
    (d1 : Disjoint buf N path (s.length + 1)) (d2 : Disjoint buf N file (name.length + 1)) :
    ∃ m', «where» access m file buf path = .ok (m', if (search access name (splitPath s)).isSome then 1 else 0) ∧
      (∀ t, search access name (splitPath s) = some t → m'.IsStr buf t) ∧ (∀ a, a < buf ∨ buf + N ≤ a → m' a = m a) :=
  whereLoop_eq s.length (Nat.le_refl _) hs hf hm hfit hne d1 d2

/-- C57 fails for an empty PATH (and for an empty element at the end): `where` reads on behind the NUL. -/
theorem C57_empty_refuted {access : List Byte → Bool} {m : Mem} {file buf path : Nat} (hs : m.IsStr path []) (hm : m.Mapped buf 1)
    (hend : m (path + 1) = none) : «where» access m file buf path = .ub := by
  unfold «where»
  rw [whereLoop, load_some (isStr_nil.1 hs)]
  simp only [Res.ok_bind]
  obtain ⟨x, hx⟩ := hm 0 (by decide)
  rw [Nat.add_zero] at hx
  rw [store_some hx]
  simp only [Res.ok_bind]
  have : (m.upd buf 0#8) (path + 1) = none := by
    by_cases h : path + 1 = buf
    · rw [h, hx] at hend; cases hend
    · rw [upd_ne h, hend]
  rw [load_none this]
  rfl

theorem C57_refuted : ¬ C57_full := by
  intro h
  let m := objects [(16, [97#8, 0#8]), (32, [0#8]), (48, [0#8, 0#8, 0#8, 0#8])]
  have hm : m.Mapped 48 4 := by
    intro i hi
    exact Option.isSome_iff_exists.1 ((by decide : ∀ i < 4, (m (48 + i)).isSome) i hi)
  obtain ⟨m', h1, _⟩ := h (fun _ => false) m 16 48 32 4 [97#8] [] ⟨by decide, by decide⟩ ⟨by decide, by decide⟩ hm
    (by intro e he; simp [splitPath] at he; subst he; decide) (by intro a; simp only [List.length_nil]; omega)
    (by intro a; simp only [List.length_cons, List.length_nil]; omega)
  rw [C57_empty_refuted (m := m) ⟨by decide, by decide⟩ (hm.mono (by decide)) (by decide)] at h1
  cases h1

/-- The buffer of `execvpe` has PATH_MAX bytes whatever PATH is: an element that is longer is written behind its end. -/
theorem C57_overflow_refuted {access : List Byte → Bool} {m : Mem} {file buf path N : Nat} {s : List Byte} (hs : m.IsStr path s) (hm : m.Mapped buf N)
    (h58 : 58#8 ∉ s) (hlong : N < s.length) (hend : m (buf + N) = none) (hd : buf + N < path) : «where» access m file buf path = .ub := by
  unfold «where»
  obtain ⟨c, rest, hcr⟩ := List.exists_cons_of_ne_nil (l := s.drop N) (by intro e; have := congrArg List.length e; simp at this; omega)
  have hst : s = s.take N ++ c :: rest := by rw [← hcr, List.take_append_drop]
  have hl : (s.take N).length = N := by simp; omega
  have h1 : 58#8 ∉ s.take N := fun h => h58 (List.mem_of_mem_take h)
  have h2 : c ≠ 58#8 := by rintro rfl; exact h58 (by rw [hst]; simp)
  rw [hst] at hs
  rw [whereLoop_chars hs h1 h2 (by rw [hl]; exact hm) (by intro a; rw [hl]; omega)]
  have hs2 : (m.write buf (s.take N)).IsStr path (s.take N ++ c :: rest) := hs.write (by left; rw [hl]; omega)
  obtain ⟨g1, g2⟩ := isStr_iff.1 hs2
  rw [List.append_assoc] at g1
  have g3 : (m.write buf (s.take N)) (path + (s.take N).length) = some c := (holds_cons.1 (holds_append.1 g1).2).1
  rw [whereLoop, load_some g3]
  simp only [Res.ok_bind]
  rw [store_none (by rw [hl, write_outside _ _ _ _ (by rw [hl]; omega)]; exact hend)]
  rfl

/-- C57 for `execvpe`, in full: a name with a slash in it is a path. -/
def C57_execvpe_full : Prop := ∀ (access : List Byte → Bool) (m : Mem) (file buf path : Nat) (name s : List Byte), m.IsStr file name → m.IsStr path s →
  m.Mapped buf 4096 → (∀ e ∈ splitPath s, e ≠ [] ∧ e.length + name.length + 2 ≤ 4096) → Disjoint buf 4096 path (s.length + 1) →
  Disjoint buf 4096 file (name.length + 1) →
  ∃ m' r, execvpe access m file buf path = .ok (m', r) ∧ (r = none ↔ execPath access name s = none) ∧
    ∀ p, r = some p → ∃ t, execPath access name s = some t ∧ m'.IsStr p t

/-- C57 (partial: the name has a slash only at its beginning, or begins with a dot and has a slash; elements of PATH as above): `execvpe`
executes the name itself or the file found first. -/
theorem C57_execvpe_partial {access : List Byte → Bool} {m : Mem} {file buf path : Nat} {name s : List Byte} (hf : m.IsStr file name)
    (hs : m.IsStr path s) (hm : m.Mapped buf 4096) (hfit : ∀ e ∈ splitPath s, e ≠ [] ∧ e.length + name.length + 2 ≤ 4096)
    (d1 : Disjoint buf 4096 path (s.length + 1)) (d2 : Disjoint buf 4096 file (name.length + 1))
    (hn : 47#8 ∈ name ↔ (name.head? = some 46#8 ∨ name.head? = some 47#8)) :
    ∃ m' r, execvpe access m file buf path = .ok (m', r) ∧ (r = none ↔ execPath access name s = none) ∧
      ∀ p, r = some p → ∃ t, execPath access name s = some t ∧ m'.IsStr p t := by
  unfold execvpe execPath
  cases name with
  | nil =>
    rw [load_some (isStr_nil.1 hf)]
    refine ⟨m, some file, rfl, by simp, ?_⟩
    intro p hp
    cases hp
    exact ⟨_, rfl, hf⟩
  | cons b name =>
    obtain ⟨h1, h2, h3⟩ := isStr_cons.1 hf
    rw [load_some h1]
    simp only [Res.ok_bind]
    simp only [List.head?_cons, Option.some.injEq] at hn
    by_cases hb : b = 46#8 ∨ b = 47#8
    · rw [if_pos (Or.inr hb), if_pos (Or.inr (hn.2 hb))]
      refine ⟨m, some file, rfl, by simp, ?_⟩
      intro p hp
      cases hp
      exact ⟨_, rfl, hf⟩
    · rw [if_neg (by rintro (h | h); exact h2 h; exact hb h), if_neg (by rintro (h | h); cases h; exact hb (hn.1 h))]
      obtain ⟨m', r1, r2, _⟩ := C57_where_partial (access := access) hf hs hm (fun e he => (hfit e he).2) (fun e he => (hfit e he).1) d1 d2
      rw [r1]
      simp only [Res.ok_bind]
      cases hsr : search access (b :: name) (splitPath s) with
      | none => exact ⟨m', none, rfl, by simp, by intro p hp; cases hp⟩
      | some t =>
        refine ⟨m', some buf, rfl, by simp, ?_⟩
        intro p hp
        cases hp
        exact ⟨t, rfl, r2 t hsr⟩

/-- C57 fails for the name "a/b": it is looked for in PATH. -/
theorem C57_execvpe_refuted : ¬ C57_execvpe_full := by
  intro h
  let m : Mem := fun a => if 100 ≤ a ∧ a < 4196 then some 0#8 else objects [(16, [97#8, 47#8, 98#8, 0#8]), (32, [98#8, 0#8])] a
  have hm : m.Mapped 100 4096 := by
    intro i hi
    exact ⟨0#8, if_pos (by omega)⟩
  have hf : m.IsStr 16 [97#8, 47#8, 98#8] := ⟨by decide, by decide⟩
  have hs : m.IsStr 32 [98#8] := ⟨by decide, by decide⟩
  have hsp : splitPath [98#8] = [[98#8]] := by decide
  obtain ⟨m', r, h1, h2, _⟩ := h (fun _ => false) m 16 100 32 [97#8, 47#8, 98#8] [98#8] hf hs hm
    (by rw [hsp]; intro e he; simp at he; subst he; decide) (by intro a; simp only [List.length_cons, List.length_nil]; omega)
    (by intro a; simp only [List.length_cons, List.length_nil]; omega)
  have hr : r = none := by
    unfold execvpe at h1
    rw [load_some (b := 97#8) (by decide)] at h1
    simp only [Res.ok_bind] at h1
    rw [if_neg (by decide)] at h1
    obtain ⟨m2, r1, _, _⟩ := C57_where_partial (access := fun _ => false) (m := m) (buf := 100) (N := 4096) hf hs hm
      (by rw [hsp]; intro e he; simp at he; subst he; decide) (by rw [hsp]; intro e he; simp at he; subst he; decide)
      (by intro a; simp only [List.length_cons, List.length_nil]; omega)
      (by intro a; simp only [List.length_cons, List.length_nil]; omega)
    rw [r1] at h1
    simp only [Res.ok_bind, Res.pure_eq, Res.ok.injEq, Prod.mk.injEq] at h1
    rw [← h1.2, hsp]
    rfl
  exact absurd (h2.1 hr) (by decide)

/-- PATH is "x:yy", the program "p" is in "yy". -/
example : ∃ m', «where» (fun l => l = [121#8, 121#8, 47#8, 112#8]) (objects [(16, [112#8, 0#8]), (32, [120#8, 58#8, 121#8, 121#8, 0#8]), (48, List.replicate 5 0#8)]) 16 48 32 =
    .ok (m', 1) ∧ m'.IsStr 48 [121#8, 121#8, 47#8, 112#8] := by
  have hm : (objects [(16, [112#8, 0#8]), (32, [120#8, 58#8, 121#8, 121#8, 0#8]), (48, List.replicate 5 0#8)]).Mapped 48 5 := by
    intro i hi
    exact Option.isSome_iff_exists.1 ((by decide : ∀ i < 5, ((objects [(16, [112#8, 0#8]), (32, [120#8, 58#8, 121#8, 121#8, 0#8]), (48, List.replicate 5 0#8)]) (48 + i)).isSome) i hi)
  obtain ⟨m', r1, r2, _⟩ := C57_where_partial (access := fun l => l = [121#8, 121#8, 47#8, 112#8]) (file := 16) (buf := 48) (path := 32) (name := [112#8])
    (s := [120#8, 58#8, 121#8, 121#8]) ⟨by decide, by decide⟩ ⟨by decide, by decide⟩ hm (by decide) (by decide)
    (by intro a; simp only [List.length_cons, List.length_nil]; omega) (by intro a; simp only [List.length_cons, List.length_nil]; omega)
  exact ⟨m', r1, r2 _ (by decide)⟩

/-! ### execl -/

/-- C72: the argument vector of the new program is `arg0`, the arguments up to the NULL and a NULL. -/
theorem C72_execl (arg0 : Nat) {args more : List Nat} (h : ∀ a ∈ args, a ≠ 0) : execl arg0 (args ++ 0 :: more) = .ok (arg0 :: args ++ [0]) := by
  have hc : ∀ l : List Nat, (∀ a ∈ l, a ≠ 0) → execlCount (l ++ 0 :: more) = .ok (l.length + 1) := by
    intro l
    induction l with
    | nil => intro _; rfl
    | cons a l ih =>
      intro hl
      rw [List.cons_append, execlCount, if_neg (hl a (by simp)), ih (fun b hb => hl b (by simp [hb]))]
      rfl
  have hf : ∀ l k : List Nat, execlFill l.length (l ++ k) = .ok (l ++ [0]) := by
    intro l k
    induction l with
    | nil => cases k <;> rfl
    | cons a l ih =>
      rw [List.cons_append, List.length_cons, execlFill, ih]
      rfl
  unfold execl
  rw [hc args h]
  simp only [Res.ok_bind, Nat.add_sub_cancel]
  rw [hf]
  rfl

example : execl 7 [8, 9, 0, 55] = .ok [7, 8, 9, 0] := C72_execl 7 (args := [8, 9]) (more := [55]) (by decide)

/-! ### system, vexec -/

theorem exited_status {code : Nat} (h : code < 256) : WIFEXITED (exitedWith code) = true ∧ WEXITSTATUS (exitedWith code) = code := by
  have : ∀ c < 256, WIFEXITED (exitedWith c) = true ∧ WEXITSTATUS (exitedWith c) = c := by decide +kernel
  exact this code h

theorem killed_status {sig : Nat} {core : Bool} (h1 : 1 ≤ sig) (h2 : sig ≤ 126) :
    WIFEXITED (killedBy sig core) = false ∧ WIFSIGNALED (killedBy sig core) = true ∧ WEXITSTATUS (killedBy sig core) = 0 := by
  have : ∀ s < 127, 1 ≤ s → ∀ c, WIFEXITED (killedBy s c) = false ∧ WIFSIGNALED (killedBy s c) = true ∧ WEXITSTATUS (killedBy s c) = 0 := by decide +kernel
  exact this sig (by omega) h1 core

/-- The kernel's answers to the calls of `waitpid` for a child that ended with status `st`: `i` calls are interrupted, one gets the
status, and then there is no child any more. -/
def _root_.Spec.childAnswers (pid st i : Nat) (n : Nat) : Option (Nat × Nat) := if n = i then some (pid, st) else none

/-- C73 for `system`, in full: the code of a command that exits, and an answer for a command that is killed. -/
def C73_system_full : Prop := ∀ (pid i : Nat),
  (∀ code, code < 256 → systemWait (childAnswers pid (exitedWith code) i) 0 none = .ok code) ∧
  (∀ sig core, 1 ≤ sig → sig ≤ 126 → ∃ r, systemWait (childAnswers pid (killedBy sig core) i) 0 none = .ok r)

/-- C73 (partial: the command exits, and `waitpid` is not interrupted): `system` returns the exit code. -/
theorem C73_system_partial (pid : Nat) {code : Nat} (h : code < 256) : systemWait (childAnswers pid (exitedWith code) 0) 0 none = .ok code := by
  rw [systemWait]
  simp only [childAnswers, if_true, Option.elim]
  rw [if_pos (exited_status h).1, (exited_status h).2]

/-- C73 fails when the command is killed by a signal: `system` never returns. -/
theorem C73_system_hangs_refuted (pid : Nat) {sig : Nat} {core : Bool} (h1 : 1 ≤ sig) (h2 : sig ≤ 126) :
    systemWait (childAnswers pid (killedBy sig core) 0) 0 none = .div := by
  have key : ∀ n, 1 ≤ n → systemWait (childAnswers pid (killedBy sig core) 0) n (some (killedBy sig core)) = .div := by
    refine systemWait.fixpoint_induct _ (motive := fun f => ∀ n, 1 ≤ n → f n (some (killedBy sig core)) = .div) ?_ ?_
    · apply admissible_pi_apply (P := fun (n : Nat) (f : Option Nat → Res Nat) => 1 ≤ n → f (some (killedBy sig core)) = Res.div)
      intro n
      apply admissible_pi
      intro _
      apply admissible_apply (P := fun (_ : Option Nat) (f : Res Nat) => f = Res.div) (x := some (killedBy sig core))
      exact admissible_flatOrder _ rfl
    · intro f ih n hn
      have : childAnswers pid (killedBy sig core) 0 n = none := if_neg (by omega)
      simp only [this, Option.elim]
      rw [if_neg (by rw [(killed_status h1 h2).1]; decide)]
      exact ih _ (by omega)
  rw [systemWait]
  simp only [childAnswers, if_true, Option.elim]
  rw [if_neg (by rw [(killed_status h1 h2).1]; decide)]
  exact key 1 (Nat.le_refl _)

theorem C73_system_refuted : ¬ C73_system_full := by
  intro h
  obtain ⟨r, hr⟩ := (h 5 0).2 9 false (by decide) (by decide)
  rw [C73_system_hangs_refuted 5 (by decide) (by decide)] at hr
  cases hr

/-- It fails for an interrupted `waitpid` as well: the status is looked at although it was not set. -/
theorem C73_system_eintr_refuted (pid st i : Nat) : systemWait (childAnswers pid st (i + 1)) 0 none = .ub := by
  rw [systemWait]
  simp [childAnswers]

/-- C73 for `vexec`, in full: the code of a program that exits, and never that of success for a program that is killed. -/
def C73_vexec_full : Prop := ∀ (ans : Nat → Option (Nat × Nat)) (pid i : Nat), (∀ j < i, ∀ a, ans j = some a → a.1 ≠ pid) →
  (∀ code, code < 256 → ans i = some (pid, exitedWith code) → vexecWait ans pid 0 = .ok code) ∧
  (∀ sig core, 1 ≤ sig → sig ≤ 126 → ans i = some (pid, killedBy sig core) → ∃ r, vexecWait ans pid 0 = .ok r ∧ r ≠ 0)

theorem vexecWait_eq {ans : Nat → Option (Nat × Nat)} {pid i st : Nat} (hb : ∀ j < i, ∀ a, ans j = some a → a.1 ≠ pid)
    (hi : ans i = some (pid, st)) (hst : WIFEXITED st = true ∨ WIFSIGNALED st = true) : ∀ n, n ≤ i → vexecWait ans pid n = .ok (WEXITSTATUS st) := by
  intro n hn
  obtain ⟨k, hk⟩ : ∃ k, i = n + k := ⟨i - n, by omega⟩
  induction k generalizing n with
  | zero =>
    rw [vexecWait, show n = i by omega, hi]
    simp only [if_true]
    rw [if_pos hst]
  | succ k ih =>
    rw [vexecWait]
    cases ha : ans n with
    | none => exact ih (n + 1) (by omega) (by omega)
    | some a =>
      simp only
      rw [if_neg (hb n (by omega) a ha)]
      exact ih (n + 1) (by omega) (by omega)

/-- C73 (partial: the program exits): `vexec` returns its exit code, whatever failures and other children `waitpid` reports before. -/
theorem C73_vexec_partial {ans : Nat → Option (Nat × Nat)} {pid i code : Nat} (hb : ∀ j < i, ∀ a, ans j = some a → a.1 ≠ pid) (hc : code < 256)
    (hi : ans i = some (pid, exitedWith code)) : vexecWait ans pid 0 = .ok code := by
  rw [vexecWait_eq hb hi (Or.inl (exited_status hc).1) 0 (Nat.zero_le _), (exited_status hc).2]

/-- C73 fails for a program that is killed: `vexec` returns 0. -/
theorem C73_vexec_refuted : ¬ C73_vexec_full := by
  intro h
  obtain ⟨r, hr1, hr2⟩ := (h (childAnswers 5 (killedBy 9 false) 0) 5 0 (by omega)).2 9 false (by decide) (by decide) rfl
  rw [vexecWait_eq (i := 0) (st := killedBy 9 false) (by omega) rfl (Or.inr (by decide)) 0 (Nat.le_refl _)] at hr1
  cases hr1
  exact hr2 (by decide)

example : vexecWait (fun n => if n = 0 then none else if n = 1 then some (4, 0) else some (5, 768)) 5 0 = .ok 3 :=
  C73_vexec_partial (i := 2) (code := 3) (by
    intro j hj a ha
    match j, hj with
    | 0, _ => cases ha
    | 1, _ => cases ha; decide) (by decide) rfl

/-- C73: a child that ends with 3. -/
example : systemWait (childAnswers 77 (exitedWith 3) 0) 0 none = .ok 3 := C73_system_partial 77 (by decide)

end Minilib

import Verif.Model.Path
import Verif.Spec.Path
import Verif.Props.Str
import Mathlib.Data.List.DropRight
import Mathlib.Data.List.TakeWhile
/-
C53: basename and dirname.
-/

set_option autoImplicit false

namespace Minilib
open Mem Spec

/-- The answer `r` is a string with this text. -/
def _root_.Spec.Gives (m : Mem) (r : PathRes) (text : List Byte) : Prop :=
  match r with
  | .const t => t = text
  | .ptr p => m.IsStr p text

theorem rstrip_snoc (s : List Byte) (b : Byte) : rstrip (s ++ [b]) = if b = 47#8 then rstrip s else s ++ [b] := by
  unfold rstrip
  rw [List.reverse_append]
  simp only [List.reverse_cons, List.reverse_nil, List.nil_append, List.cons_append, List.dropWhile_cons]
  by_cases h : b = 47#8
  · simp [h]
  · simp [h]

theorem dropName_snoc (s : List Byte) (b : Byte) : dropName (s ++ [b]) = if b = 47#8 then s ++ [b] else dropName s := by
  unfold dropName
  rw [List.reverse_append]
  simp only [List.reverse_cons, List.reverse_nil, List.nil_append, List.cons_append, List.dropWhile_cons]
  by_cases h : b = 47#8
  · simp [h]
  · simp [h]

theorem lastName_snoc (s : List Byte) (b : Byte) : lastName (s ++ [b]) = if b = 47#8 then [] else lastName s ++ [b] := by
  unfold lastName
  rw [List.reverse_append]
  simp only [List.reverse_cons, List.reverse_nil, List.nil_append, List.cons_append, List.takeWhile_cons]
  by_cases h : b = 47#8
  · simp [h]
  · simp [h]

theorem dropName_append (s : List Byte) : dropName s ++ lastName s = s := by
  unfold dropName lastName
  rw [← List.reverse_append, List.takeWhile_append_dropWhile, List.reverse_reverse]

theorem rstrip_prefix (s : List Byte) : ∃ k, s = rstrip s ++ List.replicate k 47#8 := by
  induction s using List.reverseRecOn with
  | nil => exact ⟨0, rfl⟩
  | append_singleton s b ih =>
    rw [rstrip_snoc]
    by_cases h : b = 47#8
    · rw [if_pos h]
      obtain ⟨k, hk⟩ := ih
      refine ⟨k + 1, ?_⟩
      conv => lhs; rw [hk]
      rw [List.replicate_succ', List.append_assoc, h]
    · rw [if_neg h]
      exact ⟨0, by simp⟩

theorem dropName_prefix (s : List Byte) : ∃ k, s = dropName s ++ k := ⟨lastName s, (dropName_append s).symm⟩

theorem load_at {m : Mem} {p : Nat} {s : List Byte} (h : m.Holds p s) {i : Nat} {b : Byte} (hi : s[i]? = some b) : m.load (p + i) = .ok b := by
  obtain ⟨h1, h2⟩ := List.getElem?_eq_some_iff.1 hi
  have := h i h1
  exact load_some (by rw [this, h2])

theorem backOverSlashes_eq {m : Mem} {p : Nat} {s : List Byte} : ∀ {i : Nat}, m.Holds p s → s.length = i + 1 →
    backOverSlashes m p i = .ok (if rstrip s = [] then none else some ((rstrip s).length - 1)) := by
  induction s using List.reverseRecOn with
  | nil => intro i _ h; simp at h
  | append_singleton s b ih =>
    intro i hs hl
    simp only [List.length_append, List.length_cons, List.length_nil, Nat.zero_add] at hl
    have hld := load_at hs (i := s.length) (b := b) (by simp)
    have hi : i = s.length := by omega
    rw [rstrip_snoc]
    cases i with
    | zero =>
      have : s = [] := List.eq_nil_of_length_eq_zero hi.symm
      subst this
      rw [backOverSlashes]
      rw [List.length_nil] at hld
      rw [hld]
      simp only [Res.ok_bind]
      by_cases h : b = 47#8
      · rw [if_pos h, if_pos h]; rfl
      · rw [if_neg h, if_neg h]; rfl
    | succ i =>
      rw [backOverSlashes]
      rw [← hi] at hld
      rw [hld]
      simp only [Res.ok_bind]
      by_cases h : b = 47#8
      · rw [if_pos h, if_pos h]
        exact ih ((holds_append).1 hs).1 (by omega)
      · rw [if_neg h, if_neg h, if_neg (by simp)]
        simp only [Res.pure_eq, List.length_append, List.length_cons, List.length_nil]
        congr 2

theorem backOverName_eq {m : Mem} {p : Nat} {s : List Byte} : ∀ {i : Nat}, m.Holds p s → s.length = i + 1 →
    backOverName m p i = .ok (if dropName s = [] then none else some ((dropName s).length - 1)) := by
  induction s using List.reverseRecOn with
  | nil => intro i _ h; simp at h
  | append_singleton s b ih =>
    intro i hs hl
    simp only [List.length_append, List.length_cons, List.length_nil, Nat.zero_add] at hl
    have hld := load_at hs (i := s.length) (b := b) (by simp)
    have hi : i = s.length := by omega
    rw [dropName_snoc]
    cases i with
    | zero =>
      have : s = [] := List.eq_nil_of_length_eq_zero hi.symm
      subst this
      rw [backOverName]
      rw [List.length_nil] at hld
      rw [hld]
      simp only [Res.ok_bind]
      by_cases h : b = 47#8
      · rw [if_neg (by simpa using h), if_pos h]; rfl
      · rw [if_pos h, if_neg h]; rfl
    | succ i =>
      rw [backOverName]
      rw [← hi] at hld
      rw [hld]
      simp only [Res.ok_bind]
      by_cases h : b = 47#8
      · rw [if_neg (by simpa using h), if_pos h, if_neg (by simp)]
        simp only [Res.pure_eq, List.length_append, List.length_cons, List.length_nil]
        congr 2
      · rw [if_pos h, if_neg h]
        exact ih ((holds_append).1 hs).1 (by omega)

/-- A NUL put into a string cuts it there. -/
theorem isStr_cut {m : Mem} {p : Nat} {s t : List Byte} (h : m.IsStr p (s ++ t)) : (m.write (p + s.length) [0#8]).IsStr p s := by
  obtain ⟨h1, h2⟩ := isStr_iff.1 h
  rw [List.append_assoc] at h1
  refine isStr_iff.2 ⟨holds_append.2 ⟨Holds.write (holds_append.1 h1).1 (by right; omega), write_holds _ _ _⟩, fun b hb => h2 b (by simp [hb])⟩

/-- C53, `dirname`: for every path the answer is the directory part as POSIX has it; the only byte that changes is one of
the path itself, to the NUL behind the directory part. -/
theorem C53_dirname {m : Mem} {p : Nat} {s : List Byte} (h : m.IsStr p s) (hp : p ≠ 0) (hl : s.length < 2147483648) :
    ∃ m' r, dirname m p = .ok (m', r) ∧ Gives m' r (dirName s) ∧
      (m' = m ∨ ∃ i, i < s.length ∧ m' = m.write (p + i) [0#8]) := by
  unfold dirname
  rw [if_neg hp]
  cases hs0 : s with
  | nil =>
    subst hs0
    rw [load_some (isStr_nil.1 h)]
    exact ⟨m, .const [46#8], rfl, rfl, Or.inl rfl⟩
  | cons b0 s0 =>
    rw [← hs0]
    have hne : s ≠ [] := by rw [hs0]; simp
    obtain ⟨h1, h2⟩ := isStr_iff.1 h
    have hs : m.Holds p s := (holds_append.1 h1).1
    have hb0 : b0 ≠ 0#8 := h2 b0 (by rw [hs0]; simp)
    have hld := load_at hs (i := 0) (b := b0) (by rw [hs0]; rfl)
    rw [Nat.add_zero] at hld
    rw [hld]
    simp only [Res.ok_bind]
    rw [if_neg hb0, C01_strlen h hp hl]
    simp only [Res.ok_bind]
    have hpos : 0 < s.length := by rw [hs0]; simp
    rw [backOverSlashes_eq hs (by omega)]
    simp only [Res.ok_bind]
    unfold dirName
    rw [if_neg hne]
    by_cases hr : rstrip s = []
    · rw [if_pos hr, if_pos hr]
      exact ⟨m, _, rfl, rfl, Or.inl rfl⟩
    · rw [if_neg hr, if_neg hr]
      obtain ⟨k, hk⟩ := rstrip_prefix s
      have hs1 : m.Holds p (rstrip s) := by rw [hk] at hs; exact (holds_append.1 hs).1
      have l1 : 0 < (rstrip s).length := List.length_pos_of_ne_nil hr
      simp only
      unfold dirnameTail
      rw [backOverName_eq hs1 (by omega)]
      simp only [Res.ok_bind]
      by_cases hd : dropName (rstrip s) = []
      · rw [if_pos hd, if_pos hd]
        exact ⟨m, _, rfl, rfl, Or.inl rfl⟩
      · rw [if_neg hd, if_neg hd]
        obtain ⟨k2, hk2⟩ := dropName_prefix (rstrip s)
        have hs2 : m.Holds p (dropName (rstrip s)) := by rw [hk2] at hs1; exact (holds_append.1 hs1).1
        have l2 : 0 < (dropName (rstrip s)).length := List.length_pos_of_ne_nil hd
        simp only
        rw [backOverSlashes_eq hs2 (by omega)]
        simp only [Res.ok_bind]
        by_cases hr2 : rstrip (dropName (rstrip s)) = []
        · rw [if_pos hr2, if_pos hr2]
          exact ⟨m, _, rfl, rfl, Or.inl rfl⟩
        · rw [if_neg hr2, if_neg hr2]
          obtain ⟨k3, hk3⟩ := rstrip_prefix (dropName (rstrip s))
          have l3 : 0 < (rstrip (dropName (rstrip s))).length := List.length_pos_of_ne_nil hr2
          generalize ht : rstrip (dropName (rstrip s)) = t at *
          have hst : s = t ++ (List.replicate k3 47#8 ++ k2 ++ List.replicate k 47#8) := by
            conv => lhs; rw [hk, hk2, hk3]
            simp
          have hlt : t.length < s.length := by
            have e1 := congrArg List.length hk
            have e2 := congrArg List.length hk2
            have e3 := congrArg List.length hk3
            simp only [List.length_append, List.length_replicate] at e1 e2 e3
            have e4 := congrArg List.length hst
            simp only [List.length_append, List.length_replicate] at e4
            rcases Nat.lt_or_ge t.length s.length with h5 | h5
            · exact h5
            · exfalso
              have hk0 : k3 = 0 := by omega
              rw [hk0] at hk3
              simp only [List.replicate_zero, List.append_nil] at hk3
              -- the last byte of `dropName` is a slash, that of `rstrip` is not
              have : rstrip t = t := by rw [hk3] at ht; exact ht
              obtain ⟨u, b, hub⟩ : ∃ u b, t = u ++ [b] := ⟨t.dropLast, t.getLast (by rintro rfl; simp at l3), (List.dropLast_concat_getLast _).symm⟩
              rw [hub, rstrip_snoc] at this
              by_cases hb : b = 47#8
              · rw [if_pos hb] at this
                obtain ⟨k4, hk4⟩ := rstrip_prefix u
                have e5 := congrArg List.length hk4
                have e6 := congrArg List.length this
                simp at e5 e6; omega
              · have hd2 : dropName (dropName (rstrip s)) = dropName (rstrip s) := by
                  unfold dropName
                  rw [List.reverse_reverse, List.dropWhile_idempotent]
                rw [hk3, hub, dropName_snoc, if_neg hb] at hd2
                obtain ⟨k4, hk4⟩ := dropName_prefix u
                have e5 := congrArg List.length hk4
                have e6 := congrArg List.length hd2
                simp at e5 e6; omega
          simp only
          unfold dirnameCut
          have hm : m.Mapped p s.length := hs.mapped
          obtain ⟨c, hc⟩ := hm t.length hlt
          rw [show p + (t.length - 1) + 1 = p + t.length by omega, store_some hc]
          refine ⟨_, _, rfl, ?_, Or.inr ⟨t.length, hlt, (write_singleton _ _ _).symm⟩⟩
          rw [← write_singleton]
          exact isStr_cut (by rw [← hst]; exact h)

/-- C53: NULL gives "." for both. -/
theorem C53_null (m : Mem) : dirname m 0 = .ok (m, .const [46#8]) ∧ basename m 0 = .ok (m, .const [46#8]) := ⟨rfl, rfl⟩

/-- `dirname("/usr//lib/")` is "/usr". -/
example : ∃ m' r, dirname (object 8 [47#8, 117#8, 115#8, 114#8, 47#8, 47#8, 108#8, 105#8, 98#8, 47#8, 0#8]) 8 = .ok (m', r) ∧
    Gives m' r [47#8, 117#8, 115#8, 114#8] := by
  obtain ⟨m', r, h1, h2, _⟩ := C53_dirname (m := object 8 [47#8, 117#8, 115#8, 114#8, 47#8, 47#8, 108#8, 105#8, 98#8, 47#8, 0#8]) (p := 8)
    (s := [47#8, 117#8, 115#8, 114#8, 47#8, 47#8, 108#8, 105#8, 98#8, 47#8]) ⟨by decide, by decide⟩ (by decide) (by decide)
  exact ⟨m', r, h1, h2⟩

/-! ### basename -/

theorem basenameLoop_eq {m : Mem} {path : Nat} : ∀ {rest pre : List Byte}, m.IsStr (path + pre.length) rest →
    basenameLoop m (path + pre.length) (path + (dropName (rstrip (dropName pre))).length) (path + (dropName pre).length) =
      .ok (path + (pre ++ rest).length, path + (dropName (rstrip (dropName (pre ++ rest)))).length, path + (dropName (pre ++ rest)).length)
  | [], pre, h => by
    rw [basenameLoop, load_some (isStr_nil.1 h)]
    simp
  | b :: rest, pre, h => by
    obtain ⟨h1, h2, h3⟩ := isStr_cons.1 h
    rw [basenameLoop, load_some h1]
    simp only [Res.ok_bind]
    rw [if_pos h2]
    have ih := basenameLoop_eq (m := m) (path := path) (rest := rest) (pre := pre ++ [b]) (by
      rw [List.length_append]; exact h3)
    rw [List.append_assoc, List.singleton_append, List.length_append, List.length_singleton, ← Nat.add_assoc] at ih
    rw [← ih, dropName_snoc]
    by_cases hb : b = 47#8
    · rw [if_pos hb, if_pos hb, rstrip_snoc, if_pos hb]
      simp only [List.length_append, List.length_singleton]
      by_cases hc : path + pre.length > path + (dropName pre).length
      · rw [if_pos hc]
        have hr : rstrip pre = pre := by
          obtain ⟨u, c, huc⟩ : ∃ u c, pre = u ++ [c] :=
            ⟨pre.dropLast, pre.getLast (by rintro rfl; simp [dropName] at hc), (List.dropLast_concat_getLast _).symm⟩
          rw [huc, rstrip_snoc, if_neg]
          rintro rfl
          rw [huc, dropName_snoc, if_pos rfl] at hc
          omega
        rw [hr]; rfl
      · rw [if_neg hc]
        have hd : dropName pre = pre := by
          have e := dropName_append pre
          have e2 := congrArg List.length e
          simp only [List.length_append] at e2
          have : lastName pre = [] := List.eq_nil_of_length_eq_zero (by omega)
          rw [this, List.append_nil] at e
          exact e
        rw [hd]; rfl
    · rw [if_neg hb, if_neg hb]

/-- What `basename` answers. -/
theorem basename_eq {m : Mem} {p : Nat} {s : List Byte} (h : m.IsStr p s) (hp : p ≠ 0) (hne : s ≠ []) :
    basename m p =
      if s.length > (dropName s).length then .ok (m, .ptr (p + (dropName s).length))
      else if (dropName (rstrip s)).length = 0 then .ok (m, .ptr (p + s.length - 1))
      else basenameCut m (p + (dropName (rstrip s)).length) (p + s.length) := by
  have hpos := List.length_pos_of_ne_nil hne
  unfold basename
  rw [if_neg hp]
  obtain ⟨b0, s0, rfl⟩ := List.exists_cons_of_ne_nil hne
  obtain ⟨h1, h2, _⟩ := isStr_cons.1 h
  rw [load_some h1]
  simp only [Res.ok_bind]
  rw [if_neg h2]
  have hloop := basenameLoop_eq (m := m) (path := p) (rest := b0 :: s0) (pre := []) h
  simp only [List.length_nil, Nat.add_zero, List.nil_append, dropName, rstrip, List.reverse_nil, List.dropWhile_nil] at hloop
  rw [hloop]
  simp only [Res.ok_bind, Res.pure_eq]
  change (if p + (b0 :: s0).length + 1 - (p + (dropName (b0 :: s0)).length) > 1 then _ else if p + (dropName (b0 :: s0)).length = p then _
    else if p + (dropName (rstrip (dropName (b0 :: s0)))).length = p then Res.ok (m, PathRes.ptr (p + (dropName (b0 :: s0)).length - 1))
    else basenameCut m (p + (dropName (rstrip (dropName (b0 :: s0)))).length) (p + (dropName (b0 :: s0)).length)) = _
  have hle : (dropName (b0 :: s0)).length ≤ (b0 :: s0).length := by
    have := congrArg List.length (dropName_append (b0 :: s0))
    simp only [List.length_append] at this
    omega
  by_cases hc : (b0 :: s0).length > (dropName (b0 :: s0)).length
  · rw [if_pos (by omega), if_pos hc]
    rfl
  · have e : dropName (b0 :: s0) = b0 :: s0 := by
      have e := dropName_append (b0 :: s0)
      have e2 := congrArg List.length e
      simp only [List.length_append] at e2
      have : lastName (b0 :: s0) = [] := List.eq_nil_of_length_eq_zero (by omega)
      rw [this, List.append_nil] at e
      exact e
    rw [if_neg (by omega), if_neg hc, if_neg (by omega), e]
    by_cases hz : (dropName (rstrip (b0 :: s0))).length = 0
    · rw [if_pos (by omega), if_pos hz]
    · rw [if_neg (by omega), if_neg hz]

/-- C53 in full for `basename`. -/
def C53_basename_full : Prop := ∀ (m : Mem) (p : Nat) (s : List Byte), m.IsStr p s → p ≠ 0 →
  ∃ m' r, basename m p = .ok (m', r) ∧ Gives m' r (baseName s)

/-- C53 (partial: a path that ends in a slash has another slash before its last component, and at most two slashes at the
end; or it consists of slashes): `basename` answers with the last component as POSIX has it, and changes no byte besides
slashes at the end of the path, to NUL. -/
theorem C53_basename_partial {m : Mem} {p : Nat} {s : List Byte} (h : m.IsStr p s) (hp : p ≠ 0)
    (hs : rstrip s = s ∨ rstrip s = [] ∨ (47#8 ∈ rstrip s ∧ s.length ≤ (rstrip s).length + 2)) :
    ∃ m' r, basename m p = .ok (m', r) ∧ Gives m' r (baseName s) ∧
      (m' = m ∨ m' = m.write (p + (rstrip s).length) (List.replicate (s.length - (rstrip s).length) 0#8)) := by
  by_cases hne : s = []
  · subst hne
    unfold basename
    rw [if_neg hp, load_some (isStr_nil.1 h)]
    exact ⟨m, .const [46#8], rfl, rfl, Or.inl rfl⟩
  rw [basename_eq h hp hne]
  obtain ⟨h1, h2⟩ := isStr_iff.1 h
  obtain ⟨u, c, huc⟩ : ∃ u c, s = u ++ [c] := ⟨s.dropLast, s.getLast hne, (List.dropLast_concat_getLast _).symm⟩
  have hlen : s.length = u.length + 1 := by rw [huc]; simp
  unfold baseName
  rw [if_neg hne]
  by_cases hc : c = 47#8
  · have hd : dropName s = s := by rw [huc, dropName_snoc, if_pos hc]
    have hr : rstrip s = rstrip u := by rw [huc, rstrip_snoc, if_pos hc]
    obtain ⟨k, hk⟩ := rstrip_prefix u
    have hk' := congrArg List.length hk
    simp only [List.length_append, List.length_replicate] at hk'
    rw [if_neg (by rw [hd]; omega)]
    rcases hs with hs | hs | ⟨hs, hs2⟩
    · exfalso
      rw [hr] at hs
      have := congrArg List.length hs
      omega
    · rw [if_pos (by rw [hs]; rfl), if_pos hs]
      refine ⟨m, _, rfl, ?_, Or.inl rfl⟩
      show m.IsStr (p + s.length - 1) [47#8]
      rw [show p + s.length - 1 = p + u.length by omega]
      rw [huc, List.append_assoc] at h1
      refine isStr_iff.2 ⟨?_, by decide⟩
      have := (holds_append.1 h1).2
      rw [hc] at this
      exact this
    · have hrne : rstrip s ≠ [] := by intro e; rw [e] at hs; cases hs
      have hdn : (dropName (rstrip s)).length ≠ 0 := by
        intro e
        have e2 := List.eq_nil_of_length_eq_zero e
        have e3 := dropName_append (rstrip s)
        rw [e2, List.nil_append] at e3
        rw [← e3] at hs
        unfold lastName at hs
        have := List.mem_takeWhile_imp (List.mem_reverse.1 hs)
        simp at this
      rw [if_neg hdn, if_neg hrne]
      have hk2 : k ≤ 1 := by rw [hr] at hs2; omega
      have hst : s = dropName (rstrip s) ++ (lastName (rstrip s) ++ List.replicate (k + 1) 47#8) := by
        rw [← List.append_assoc, dropName_append, hr]
        conv => lhs; rw [huc, hk, hc]
        rw [List.replicate_succ', List.append_assoc]
      have hstr : m.IsStr (p + (dropName (rstrip s)).length) (lastName (rstrip s) ++ List.replicate (k + 1) 47#8) := by
        refine isStr_iff.2 ⟨?_, fun b hb => h2 b (by rw [hst]; exact List.mem_append.2 (Or.inr hb))⟩
        rw [hst, List.append_assoc] at h1
        exact (holds_append.1 h1).2
      have hl2 := congrArg List.length (dropName_append (rstrip s))
      simp only [List.length_append] at hl2
      have hS : m.Holds p s := (holds_append.1 h1).1
      have hM : m.Mapped p s.length := hS.mapped
      unfold basenameCut
      have hul : u.length = (rstrip s).length + k := by rw [hr]; exact hk'
      have hrl : 0 < (rstrip s).length := List.length_pos_of_ne_nil hrne
      have hlast : ∃ v d, rstrip s = v ++ [d] ∧ d ≠ 47#8 := by
        refine ⟨(rstrip s).dropLast, (rstrip s).getLast hrne, (List.dropLast_concat_getLast _).symm, ?_⟩
        intro e
        have e2 : rstrip (rstrip s) = rstrip s := by
          unfold rstrip
          rw [List.reverse_reverse, List.dropWhile_idempotent]
        have e3 := (List.dropLast_concat_getLast hrne).symm
        rw [e] at e3
        rw [e3, rstrip_snoc, if_pos rfl] at e2
        obtain ⟨k4, hk4⟩ := rstrip_prefix ((rstrip s).dropLast)
        have e5 := congrArg List.length hk4
        have e6 := congrArg List.length e2
        simp only [List.length_append, List.length_replicate, List.length_singleton] at e5 e6
        omega
      obtain ⟨v, d, hvd, hd47⟩ := hlast
      have hvl := congrArg List.length hvd
      simp only [List.length_append, List.length_singleton] at hvl
      have hk0 : k = 0 ∨ k = 1 := by omega
      rcases hk0 with rfl | rfl
      · have hld : m.load (p + v.length) = .ok d := load_at hS (by
          rw [huc, hk, ← hr, hvd]; simp)
        rw [show p + s.length - 2 = p + v.length by omega, hld]
        simp only [Res.ok_bind]
        rw [if_neg hd47]
        simp only [Res.pure_eq, Res.ok_bind]
        obtain ⟨x, hx⟩ := hM u.length (by omega)
        rw [show p + s.length - 1 = p + u.length by omega, store_some hx]
        refine ⟨_, _, rfl, ?_, Or.inr ?_⟩
        · rw [← write_singleton]
          have := isStr_cut hstr
          rw [show p + (dropName (rstrip s)).length + (lastName (rstrip s)).length = p + u.length by omega] at this
          exact this
        · rw [← write_singleton, show s.length - (rstrip s).length = 1 by omega, show (rstrip s).length = u.length by omega]
          rfl
      · have hld : m.load (p + (rstrip s).length) = .ok 47#8 := load_at hS (by
          rw [hr]
          conv => lhs; lhs; rw [huc, hk]
          simp)
        obtain ⟨x, hx⟩ := hM (rstrip s).length (by omega)
        obtain ⟨y, hy⟩ := hM u.length (by omega)
        rw [show p + s.length - 2 = p + (rstrip s).length by omega, hld]
        simp only [Res.ok_bind, if_true]
        rw [store_some hx]
        simp only [Res.ok_bind]
        rw [show p + s.length - 1 = p + (rstrip s).length + 1 by omega, store_some (c := y) (by
          rw [upd_ne (by omega), show p + (rstrip s).length + 1 = p + u.length by omega]; exact hy)]
        have hw : (m.upd (p + (rstrip s).length) 0#8).upd (p + (rstrip s).length + 1) 0#8 =
            m.write (p + (rstrip s).length) [0#8, 0#8] := by
          rw [show [0#8, 0#8] = [0#8] ++ [0#8] from rfl, write_append, write_singleton, write_singleton]
          rfl
        refine ⟨_, _, rfl, ?_, Or.inr ?_⟩
        · rw [hw, show [0#8, 0#8] = [0#8] ++ [0#8] from rfl, write_append]
          have := isStr_cut hstr
          rw [show p + (dropName (rstrip s)).length + (lastName (rstrip s)).length = p + (rstrip s).length by omega] at this
          exact this.write (by right; simp only [List.length_singleton]; omega)
        · rw [hw, show s.length - (rstrip s).length = 2 by omega]
          rfl
  · have hr : rstrip s = s := by rw [huc, rstrip_snoc, if_neg hc]
    have hd := dropName_append s
    have hln : lastName s ≠ [] := by rw [huc, lastName_snoc, if_neg hc]; simp
    have hd2 := congrArg List.length hd
    simp only [List.length_append] at hd2
    have := List.length_pos_of_ne_nil hln
    rw [if_pos (by omega), hr, if_neg hne]
    refine ⟨m, _, rfl, ?_, Or.inl rfl⟩
    show m.IsStr (p + (dropName s).length) (lastName s)
    rw [← hd, List.append_assoc] at h1
    exact isStr_iff.2 ⟨(holds_append.1 h1).2, fun b hb => h2 b (by rw [← hd]; simp [hb])⟩

/-- C53 fails for `basename("a/")`: the answer is "/". -/
theorem C53_basename_refuted : ¬ C53_basename_full := by
  intro h
  have hs : (object 8 [97#8, 47#8, 0#8]).IsStr 8 [97#8, 47#8] := ⟨by decide, by decide⟩
  obtain ⟨m', r, h1, h2⟩ := h _ 8 [97#8, 47#8] hs (by decide)
  rw [basename_eq hs (by decide) (by decide), if_neg (by decide), if_pos (by decide)] at h1
  simp only [Res.ok.injEq, Prod.mk.injEq] at h1
  rw [← h1.1, ← h1.2] at h2
  have h3 : (object 8 [97#8, 47#8, 0#8]).IsStr 9 [47#8] := ⟨by decide, by decide⟩
  exact absurd (IsStr.unique h2 h3) (by decide)

/-- It fails for three slashes at the end as well: the answer to "/a///" is "a/". -/
theorem C53_basename_slashes_refuted : ∃ m' r, basename (object 8 [47#8, 97#8, 47#8, 47#8, 47#8, 0#8]) 8 = .ok (m', r) ∧
    Gives m' r [97#8, 47#8] ∧ baseName [47#8, 97#8, 47#8, 47#8, 47#8] = [97#8] := by
  have hs : (object 8 [47#8, 97#8, 47#8, 47#8, 47#8, 0#8]).IsStr 8 [47#8, 97#8, 47#8, 47#8, 47#8] := ⟨by decide, by decide⟩
  rw [basename_eq hs (by decide) (by decide), if_neg (by decide), if_neg (by decide)]
  unfold basenameCut
  rw [load_some (b := 47#8) (by decide)]
  simp only [Res.ok_bind, if_true]
  rw [store_some (c := 47#8) (by decide)]
  simp only [Res.ok_bind]
  rw [store_some (c := 47#8) (by decide)]
  exact ⟨_, _, rfl, ⟨by decide, by decide⟩, by decide⟩

/-- `basename("/usr/lib//")` is "lib". -/
example : ∃ m' r, basename (object 8 [47#8, 117#8, 115#8, 114#8, 47#8, 108#8, 105#8, 98#8, 47#8, 47#8, 0#8]) 8 = .ok (m', r) ∧
    Gives m' r [108#8, 105#8, 98#8] := by
  obtain ⟨m', r, h1, h2, _⟩ := C53_basename_partial (m := object 8 [47#8, 117#8, 115#8, 114#8, 47#8, 108#8, 105#8, 98#8, 47#8, 47#8, 0#8]) (p := 8)
    (s := [47#8, 117#8, 115#8, 114#8, 47#8, 108#8, 105#8, 98#8, 47#8, 47#8]) ⟨by decide, by decide⟩ (by decide) (by decide)
  exact ⟨m', r, h1, h2⟩

end Minilib

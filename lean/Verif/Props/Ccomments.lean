import Verif.Lemmas.CcommentsRun
import Verif.Spec.Streams
/-
C101 The tool that removes comments, in front of the header that is generated (tools/removeccomments.c; /repo/Makefile:198 pipes the whole of minilib
through it).
-/

set_option autoImplicit false

namespace Minilib
open Spec

/-- What the filter makes of a text: as wanted (`Doc`), and besides that the lines in which code and comments are mixed otherwise. -/
inductive _root_.Spec.Filtered : Mode → List (List Byte) → List (List Byte) → Prop
  | nil (m : Mode) : Filtered m [] []
  | code (l : List Byte) (ls os : List (List Byte)) : Code (trimEnd l) → Filtered .code ls os → Filtered .code (l :: ls) (trimEnd l :: os)
  | line (b r : List Byte) (ls os : List (List Byte)) : Blank b → Filtered (if Continued (b ++ 47#8 :: 47#8 :: r) then .line else .code) ls os →
      Filtered .code ((b ++ 47#8 :: 47#8 :: r) :: ls) ([] :: os)
  | more (l : List Byte) (ls os : List (List Byte)) : Filtered (if Continued l then .line else .code) ls os → Filtered .line (l :: ls) ([] :: os)
  /-- A comment at the start of a line, and code behind it: nothing is left of both. -/
  | lost (b a t : List Byte) (ls os : List (List Byte)) : Blank b → NoEnd (a ++ [42#8]) → Code (trimEnd t) → Filtered .code ls os →
      Filtered .code ((b ++ 47#8 :: 42#8 :: (a ++ 42#8 :: 47#8 :: t)) :: ls) ([] :: os)
  /-- A comment behind code that ends in the same line: it stays. -/
  | kept (u a t : List Byte) (ls os : List (List Byte)) : Code u → ¬ Blank u → u.getLast? ≠ some 47#8 → NoEnd (a ++ [42#8]) → Code (trimEnd t) →
      Filtered .code ls os → Filtered .code ((u ++ 47#8 :: 42#8 :: (a ++ 42#8 :: 47#8 :: t)) :: ls) (trimEnd (u ++ 47#8 :: 42#8 :: (a ++ 42#8 :: 47#8 :: t)) :: os)
  /-- A `//` comment behind code: it stays. -/
  | eol (u w : List Byte) (ls os : List (List Byte)) : Code u → ¬ Blank u → u.getLast? ≠ some 47#8 →
      Filtered (if Continued (u ++ 47#8 :: 47#8 :: w) then .line else .code) ls os →
      Filtered .code ((u ++ 47#8 :: 47#8 :: w) :: ls) (trimEnd (u ++ 47#8 :: 47#8 :: w) :: os)
  | «open» (b a : List Byte) (ls os : List (List Byte)) : Blank b → NoEnd a → Filtered .block ls os → Filtered .code ((b ++ 47#8 :: 42#8 :: a) :: ls) ([] :: os)
  | tail (u a : List Byte) (ls os : List (List Byte)) : Code u → ¬ Blank u → u.getLast? ≠ some 47#8 → NoEnd a → Filtered .block ls os →
      Filtered .code ((u ++ 47#8 :: 42#8 :: a) :: ls) (u :: os)
  | inside (l : List Byte) (ls os : List (List Byte)) : NoEnd l → Filtered .block ls os → Filtered .block (l :: ls) ([] :: os)
  | close (a t : List Byte) (ls os : List (List Byte)) : NoEnd (a ++ [42#8]) → Code (trimEnd t) → Filtered .code ls os →
      Filtered .block ((a ++ 42#8 :: 47#8 :: t) :: ls) (trimEnd t :: os)

/-- The lines of a text, without their newlines. -/
def _root_.Spec.bodies (d : List Byte) : List (List Byte) := (textLines d).map chomp

/-- Lines, each with a newline. -/
def _root_.Spec.joinLines (os : List (List Byte)) : List Byte := os.flatMap (· ++ [10#8])

/-- A text the tool has room for: below one million bytes, fewer than 100000 lines, each below 10000 bytes; the first one is not empty; no carriage return. -/
structure _root_.Spec.Fit (d : List Byte) : Prop where
  size : d.length < 1000000
  count : (textLines d).length < 100000
  width : ∀ l ∈ textLines d, l.length < 10000
  first : d.head? ≠ some 10#8
  cr : 13#8 ∉ d

/-- Text, for examples. -/
def _root_.Spec.rcText (s : String) : List Byte := s.toList.map fun c => BitVec.ofNat 8 c.toNat

/-- The flags of a mode. -/
def RcInv : Mode → RcSt → Prop
  | .code, s => s.quote = false ∧ s.cms = 0 ∧ s.ccms = false
  | .block, s => s.quote = false ∧ s.cms ≠ 0 ∧ s.ccms = false
  | .line, s => s.prev = true ∧ s.quote = false ∧ s.cms = 0 ∧ s.ccms = true

theorem rcInv_init {m : Mode} {s : RcSt} (h : RcInv m s) {i : Nat} (hi : 1 ≤ i ∨ s = rcInit) : m = .code ∨ 1 ≤ i := by
  rcases hi with hi | hi
  · exact Or.inr hi
  · subst hi
    cases m with
    | code => exact Or.inl rfl
    | block => exact absurd rfl h.2.1
    | line => exact absurd h.1 (by decide)

theorem entryOut_none {B : Nat → Byte} {i L : Nat} {e : RcLine} (h : e.p = none) : EntryOut B i L e [] := Or.inl ⟨h, rfl⟩

theorem rcInv_cont {s : RcSt} {l : List Byte} (h1 : s.quote = false) (h2 : s.cms = 0) (h3 : s.prev = decide (Continued l)) (h4 : s.ccms = decide (Continued l)) :
    RcInv (if Continued l then .line else .code) s := by
  split
  · next hc => exact ⟨by rw [h3]; simpa using hc, h1, h2, by rw [h4]; simpa using hc⟩
  · next hc => exact ⟨h1, h2, by rw [h4]; simpa using hc⟩

theorem ascii_bodies {d : List Byte} (h : Ascii d) : ∀ l ∈ bodies d, Ascii l := by
  intro l hl c hc
  obtain ⟨x, hx, rfl⟩ := List.mem_map.mp hl
  refine h c ?_
  rw [← textLines_flatten d]
  refine List.mem_flatten.mpr ⟨x, hx, ?_⟩
  rw [chomp] at hc
  split at hc
  · exact (List.dropLast_sublist _).subset hc
  · exact hc

/-- **C101.** Every text for which the tool has room is handled without any access outside of its arrays, whatever pieces `read` delivers; one line is written
for every line read; what is written for a line is a part of this line. -/
theorem C101_shape_partial {K : RKernel} (hK : NoErr K) (d : List Byte) (c : Nat) (hd : Fit d) :
    ∃ os, rcMain K ⟨d, c⟩ = .ok (joinLines os) ∧ os.length = (bodies d).length ∧ ∀ x ∈ os.zip (bodies d), x.1 <:+: x.2 := by
  refine rcMain_sim hK d c hd.size hd.cr hd.first hd.count hd.width
    (fun _ ls post => ∀ os : List (List Byte), os.length = ls.length ∧ (∀ x ∈ os.zip ls, x.1 <:+: x.2) → post os) ?_ ?_ _ (fun os h => h)
  · intro s post h
    exact h [] ⟨rfl, fun x hx => by simp at hx⟩
  · intro B n i s l ls post h1 h2 h3 h4 h5 h6 hP
    obtain ⟨e, s', a1, a2⟩ := rcStep_shape h1 h3 h4 s h5 (by
      intro hp
      rcases h6 with h6 | h6
      · exact h6
      · rw [h6] at hp; exact absurd hp (by decide))
    have ho : ∃ o, EntryOut B i l.length e o ∧ o <:+: l := by
      rcases a2 with a2 | ⟨p, a2, a3, a4⟩
      · exact ⟨[], entryOut_none a2, List.nil_infix⟩
      · refine ⟨_, Or.inr ⟨p, a2, a3, a4, rfl⟩, ?_⟩
        have : (List.range e.n).map (fun t => B (p + t)) = (l.drop (p - i)).take e.n := by
          refine List.ext_getElem (by simp; omega) ?_
          intro t t1 t2
          simp at t1
          simp only [List.getElem_map, List.getElem_range, List.getElem_take, List.getElem_drop]
          rw [show p + t = i + (p - i + t) by omega]
          exact sitsAt_get h2 _ (by omega)
        rw [this]
        exact (List.takeWhile_prefix _).isInfix.trans ((List.take_prefix _ _).isInfix.trans (List.drop_suffix _ _).isInfix)
    obtain ⟨o, ho1, ho2⟩ := ho
    refine ⟨e, s', o, a1, ho1, ?_⟩
    intro os hos
    refine hP (o :: os) ⟨by simp [hos.1], ?_⟩
    intro x hx
    rw [List.zip_cons_cons, List.mem_cons] at hx
    rcases hx with hx | hx
    · rw [hx]; exact ho2
    · exact hos.2 x hx

/-- **C101.** What the tool writes, for lines in which code and comments are mixed in any of the ways of `Filtered`. -/
theorem C101_filtered {K : RKernel} (hK : NoErr K) (d : List Byte) (c : Nat) (hd : Fit d) (ha : Ascii d) (os : List (List Byte))
    (h : Filtered .code (bodies d) os) : rcMain K ⟨d, c⟩ = .ok (joinLines os) := by
  suffices hx : ∃ os', rcMain K ⟨d, c⟩ = .ok (os'.flatMap (· ++ [10#8])) ∧ os' = os by
    obtain ⟨os', h1, h2⟩ := hx
    rw [h1, h2]
    rfl
  refine rcMain_sim hK d c hd.size hd.cr hd.first hd.count hd.width
    (fun s ls post => ∃ m os, RcInv m s ∧ Filtered m ls os ∧ (∀ l ∈ ls, Ascii l) ∧ post os) ?_ ?_ (fun os' => os' = os)
    ⟨.code, os, ⟨rfl, rfl, rfl⟩, h, ascii_bodies ha, rfl⟩
  · rintro s post ⟨m, os, h1, h2, h3, h4⟩
    cases h2
    exact h4
  · rintro B n i s l ls post h1 h2 h3 h4 h5 h6 ⟨m, os, g1, g2, g3, g4⟩
    have ha := g3 l (by simp)
    have ha' : ∀ l ∈ ls, Ascii l := fun x hx => g3 x (by simp [hx])
    have hi := rcInv_init g1 h6
    cases g2 with
    | code l ls os hc hr =>
      obtain ⟨q1, q2, q3⟩ := g1
      obtain ⟨start, a1, a2, a3, e⟩ := rcStep_code h1 h3 h4 q1 q2 q3
      obtain ⟨en, s', ef, d1, d2, d3, d4⟩ := fin_code h1 s i l start rfl h5 (Nat.le_refl _) h2 ha a1 a2 a3 hc q3
      exact ⟨en, s', _, e.trans ef, d4, .code, os, ⟨d1, d2, d3⟩, hr, ha', g4⟩
    | line b r ls os hb hr =>
      obtain ⟨q1, q2, q3⟩ := g1
      obtain ⟨en, s', ef, d1, d2, d3, d4, d5⟩ := rc_step_line h1 h3 h4 q1 q2 q3 hb ha h2
      exact ⟨en, s', [], ef, entryOut_none d5, _, os, rcInv_cont d1 d2 d3 d4, hr, ha', g4⟩
    | more l ls os hr =>
      obtain ⟨q0, q1, q2, q3⟩ := g1
      have hi : 1 ≤ i := by rcases hi with hi | hi <;> [cases hi; exact hi]
      obtain ⟨en, s', ef, d1, d2, d3, d4, d5⟩ := rc_step_more h1 h3 h4 hi q0 q1 q2 q3 h2
      exact ⟨en, s', [], ef, entryOut_none d5, _, os, rcInv_cont d1 d2 d3 d4, hr, ha', g4⟩
    | lost b a t ls os hb hne ht hr =>
      obtain ⟨q1, q2, q3⟩ := g1
      obtain ⟨en, s', ef, d1, d2, d3, d4, _⟩ := rc_step_mid h1 h3 h4 q1 q2 q3 (code_blank hb) (blank_last hb) hne ht ha h2
      exact ⟨en, s', [], ef, entryOut_none (d4 hb), .code, os, ⟨d1, d2, d3⟩, hr, ha', g4⟩
    | kept u a t ls os hu hub hul hne ht hr =>
      obtain ⟨q1, q2, q3⟩ := g1
      obtain ⟨en, s', ef, d1, d2, d3, _, d4⟩ := rc_step_mid h1 h3 h4 q1 q2 q3 hu hul hne ht ha h2
      exact ⟨en, s', _, ef, d4 hub, .code, os, ⟨d1, d2, d3⟩, hr, ha', g4⟩
    | eol u w ls os hu hub hul hr =>
      obtain ⟨q1, q2, q3⟩ := g1
      obtain ⟨en, s', ef, d1, d2, d3, d4, d5⟩ := rc_step_eol h1 h3 h4 q1 q2 q3 hu hub hul ha h2
      exact ⟨en, s', _, ef, d5, _, os, rcInv_cont d1 d2 d3 d4, hr, ha', g4⟩
    | «open» b a ls os hb hne hr =>
      obtain ⟨q1, q2, q3⟩ := g1
      obtain ⟨en, s', ef, d1, d2, d3, d4, _⟩ := rc_step_open h1 h3 h4 q1 q2 q3 (code_blank hb) (blank_last hb) ha h2 hne
      exact ⟨en, s', [], ef, entryOut_none (d4 hb), .block, os, ⟨d1, d2, d3⟩, hr, ha', g4⟩
    | tail u a ls os hu hub hul hne hr =>
      obtain ⟨q1, q2, q3⟩ := g1
      obtain ⟨en, s', ef, d1, d2, d3, _, d4⟩ := rc_step_open h1 h3 h4 q1 q2 q3 hu hul ha h2 hne
      exact ⟨en, s', _, ef, d4 hub, .block, os, ⟨d1, d2, d3⟩, hr, ha', g4⟩
    | inside l ls os hne hr =>
      obtain ⟨q1, q2, q3⟩ := g1
      have hi : 1 ≤ i := by rcases hi with hi | hi <;> [cases hi; exact hi]
      obtain ⟨en, s', ef, d1, d2, d3, d4⟩ := rc_step_inside h1 h3 h4 hi q1 q2 q3 h2 hne
      exact ⟨en, s', [], ef, entryOut_none d4, .block, os, ⟨d1, d2, d3⟩, hr, ha', g4⟩
    | close a t ls os hne ht hr =>
      obtain ⟨q1, q2, q3⟩ := g1
      obtain ⟨en, s', ef, d1, d2, d3, d4⟩ := rc_step_close h1 h3 h4 q1 q2 q3 h2 ha hne ht
      exact ⟨en, s', _, ef, d4, .code, os, ⟨d1, d2, d3⟩, hr, ha', g4⟩

theorem filtered_of_doc {m : Mode} {ls os : List (List Byte)} (h : Doc m ls os) : Filtered m ls os := by
  induction h with
  | nil m => exact .nil m
  | code l ls os h _ ih => exact .code l ls os h ih
  | line b r ls os h _ ih => exact .line b r ls os h ih
  | more l ls os _ ih => exact .more l ls os ih
  | whole b a t ls os h1 h2 h3 _ ih => exact .lost b a t ls os h1 h2 (by rw [trimEnd_blank h3]; exact .nil) ih
  | «open» b a ls os h1 h2 _ ih => exact .open b a ls os h1 h2 ih
  | tail u a ls os h1 h2 h3 h4 _ ih => exact .tail u a ls os h1 h2 h3 h4 ih
  | inside l ls os h _ ih => exact .inside l ls os h ih
  | close a t ls os h1 h2 _ ih => exact .close a t ls os h1 h2 ih

/-- **C101.** Comments are removed and code is kept, line by line, when comments have their lines for themselves, or start behind the code of a line and end
in a later one; strings may contain what looks like a comment. -/
theorem C101_doc_partial {K : RKernel} (hK : NoErr K) (d : List Byte) (c : Nat) (hd : Fit d) (ha : Ascii d) (os : List (List Byte))
    (h : Doc .code (bodies d) os) : rcMain K ⟨d, c⟩ = .ok (joinLines os) :=
  C101_filtered hK d c hd ha os (filtered_of_doc h)

/-- **C101.** A text without any slash is copied, without the blanks at the ends of its lines, whatever its quotes and backslashes are. -/
theorem C101_copy {K : RKernel} (hK : NoErr K) (d : List Byte) (c : Nat) (hd : Fit d) (ha : Ascii d) (h : 47#8 ∉ d) :
    rcMain K ⟨d, c⟩ = .ok (joinLines ((bodies d).map trimEnd)) := by
  have hb : ∀ l ∈ bodies d, 47#8 ∉ l := by
    intro l hl hc
    obtain ⟨x, hx, rfl⟩ := List.mem_map.mp hl
    refine h ?_
    rw [← textLines_flatten d]
    refine List.mem_flatten.mpr ⟨x, hx, ?_⟩
    rw [chomp] at hc
    split at hc
    · exact (List.dropLast_sublist _).subset hc
    · exact hc
  suffices hx : ∃ os', rcMain K ⟨d, c⟩ = .ok (os'.flatMap (· ++ [10#8])) ∧ os' = (bodies d).map trimEnd by
    obtain ⟨os', h1, h2⟩ := hx
    rw [h1, h2]
    rfl
  refine rcMain_sim hK d c hd.size hd.cr hd.first hd.count hd.width
    (fun s ls post => s.cms = 0 ∧ s.ccms = false ∧ (∀ l ∈ ls, Ascii l ∧ 47#8 ∉ l) ∧ post (ls.map trimEnd)) ?_ ?_
    (fun os' => os' = (bodies d).map trimEnd) ⟨rfl, rfl, fun l hl => ⟨ascii_bodies ha l hl, hb l hl⟩, rfl⟩
  · rintro s post ⟨_, _, _, h⟩
    exact h
  · rintro B n i s l ls post h1 h2 h3 h4 h5 h6 ⟨g1, g2, g3, g4⟩
    have hl := g3 l (by simp)
    obtain ⟨e, s', a1, a2, a3, a4⟩ := rc_step_noslash h1 h3 h4 h5 (by
      intro hp
      rcases h6 with h6 | h6
      · exact h6
      · rw [h6] at hp; exact absurd hp (by decide)) g1 g2 h2 hl.1 hl.2
    exact ⟨e, s', _, a1, a4, a2, a3, fun x hx => g3 x (by simp [hx]), g4⟩

/-- Full statement: code behind a comment is kept. -/
def C101_code_full : Prop :=
  ∀ (K : RKernel) (d : List Byte) (c : Nat) (a t : List Byte), NoErr K → Fit d → Ascii d → bodies d = [47#8 :: 42#8 :: (a ++ 42#8 :: 47#8 :: t)] →
    NoEnd (a ++ [42#8]) → Code t → trimEnd t = t → ∃ o, rcMain K ⟨d, c⟩ = .ok o ∧ t <:+: o

theorem fit_of {d : List Byte} (h1 : d.length < 10000) (h2 : d.head? ≠ some 10#8) (h3 : 13#8 ∉ d) : Fit d := by
  refine ⟨by omega, Nat.lt_of_le_of_lt (length_textLines d) (by omega), ?_, h2, h3⟩
  intro l hl
  have := (List.sublist_flatten_of_mem hl).length_le
  rw [textLines_flatten] at this
  omega

/-- Whether bytes are ASCII, as a test. -/
theorem ascii_of {d : List Byte} (h : d.all (fun c => decide (c ≠ 0#8) && decide (c.toNat < 128)) = true) : Ascii d := by
  intro c hc
  simpa using List.all_eq_true.mp h c hc

theorem noEnd_of {l : List Byte} (h : ∀ t, t < l.length → ¬ (l[t]? = some 42#8 ∧ l[t + 1]? = some 47#8)) : NoEnd l := by
  intro t h1 h2
  refine h t ?_ ⟨h1, h2⟩
  exact (List.getElem?_eq_some_iff.mp h1).1

/-- **C101.** `/* c */ int x;` becomes an empty line. -/
theorem C101_code_refuted : ¬ C101_code_full := by
  intro h
  have hd : Fit (rcText "/* c */ int x;") := fit_of (by decide +kernel) (by decide +kernel) (by decide +kernel)
  have ha : Ascii (rcText "/* c */ int x;") := ascii_of (by decide +kernel)
  have hn : NoEnd (rcText " c " ++ [42#8]) := noEnd_of (by decide +kernel)
  have hcode : Code (rcText " int x;") := by
    rw [show rcText " int x;" = [32#8, 105#8, 110#8, 116#8, 32#8, 120#8, 59#8] by decide +kernel]
    repeat (refine .chr _ _ (by decide) (by decide) ?_)
    exact .nil
  have ht : trimEnd (rcText " int x;") = rcText " int x;" := by decide +kernel
  obtain ⟨o, h1, h2⟩ := h (fun _ n => n) (rcText "/* c */ int x;") 0 (rcText " c ") (rcText " int x;") (fun _ n => by simp) hd ha (by decide +kernel) hn hcode ht
  have := C101_filtered (K := fun _ n => n) (fun _ n => by simp) (rcText "/* c */ int x;") 0 hd ha [[]] (by
    rw [show bodies (rcText "/* c */ int x;") = [[] ++ 47#8 :: 42#8 :: (rcText " c " ++ 42#8 :: 47#8 :: rcText " int x;")] by decide +kernel]
    exact .lost [] _ _ [] [] (fun c hc => by simp at hc) hn (by rw [ht]; exact hcode) (.nil _))
  rw [this] at h1
  cases h1
  have hl := h2.length_le
  exact absurd hl (by decide +kernel)

/-- Full statement: a comment at the end of a line is removed. -/
def C101_eol_full : Prop :=
  ∀ (K : RKernel) (d : List Byte) (c : Nat) (u w : List Byte), NoErr K → Fit d → Ascii d → bodies d = [u ++ 47#8 :: 47#8 :: w] → Code u →
    ∃ o, rcMain K ⟨d, c⟩ = .ok o ∧ o = trimEnd u ++ [10#8]

/-- **C101.** The comment of `x; // y` stays. -/
theorem C101_eol_refuted : ¬ C101_eol_full := by
  intro h
  have hd : Fit (rcText "x; // y") := fit_of (by decide +kernel) (by decide +kernel) (by decide +kernel)
  have ha : Ascii (rcText "x; // y") := ascii_of (by decide +kernel)
  have hcode : Code (rcText "x; ") := by
    rw [show rcText "x; " = [120#8, 59#8, 32#8] by decide +kernel]
    repeat (refine .chr _ _ (by decide) (by decide) ?_)
    exact .nil
  have hb : bodies (rcText "x; // y") = [rcText "x; " ++ 47#8 :: 47#8 :: rcText " y"] := by decide +kernel
  obtain ⟨o, h1, h2⟩ := h (fun _ n => n) (rcText "x; // y") 0 (rcText "x; ") (rcText " y") (fun _ n => by simp) hd ha hb hcode
  have := C101_filtered (K := fun _ n => n) (fun _ n => by simp) (rcText "x; // y") 0 hd ha [trimEnd (rcText "x; // y")] (by
    rw [hb, show rcText "x; // y" = rcText "x; " ++ 47#8 :: 47#8 :: rcText " y" by decide +kernel]
    refine .eol _ _ [] [] hcode ?_ (by decide +kernel) (.nil _)
    intro hx
    exact absurd (hx 120#8 (by decide +kernel)) (by decide))
  rw [this] at h1
  cases h1
  exact absurd h2 (by decide +kernel)

/-- Full statement: lines without slashes are kept, for all bytes other than NUL. -/
def C101_bytes_full : Prop :=
  ∀ (K : RKernel) (d : List Byte) (c : Nat), NoErr K → Fit d → 47#8 ∉ d → 0#8 ∉ d → rcMain K ⟨d, c⟩ = .ok (joinLines ((bodies d).map trimEnd))

/-- **C101.** A line of bytes that are no ASCII (as in UTF-8) is deleted: they are negative, and taken for blanks. -/
theorem C101_high {K : RKernel} (hK : NoErr K) (l : List Byte) (c : Nat) (h0 : l ≠ []) (hl : l.length < 10000) (h : ∀ b ∈ l, 128 ≤ b.toNat) :
    rcMain K ⟨l, c⟩ = .ok [10#8] := by
  have hne : ∀ b ∈ l, b ≠ 10#8 ∧ b ≠ 13#8 := by
    intro b hb
    have := h b hb
    refine ⟨fun hx => ?_, fun hx => ?_⟩ <;> rw [hx] at this <;> exact absurd this (by decide)
  have hfit : Fit l := fit_of hl (by
    intro hx
    exact (hne _ (List.mem_of_mem_head? hx)).1 rfl) (fun hx => (hne _ hx).2 rfl)
  have htl : ∀ l : List Byte, l ≠ [] → (∀ b ∈ l, b ≠ 10#8) → textLines l = [l] := by
    intro l
    induction l with
    | nil => intro h; exact absurd rfl h
    | cons b l ih =>
      intro _ hb
      rw [textLines, if_neg (hb b (by simp))]
      cases l with
      | nil => rfl
      | cons c l => rw [ih (by simp) (fun x hx => hb x (by simp [hx]))]
  have ht := htl l h0 (fun b hb => (hne b hb).1)
  have hch : chomp l = l := by
    rw [chomp, if_neg]
    intro hx
    exact (hne _ (List.mem_of_getLast? hx)).1 rfl
  suffices hx : ∃ os', rcMain K ⟨l, c⟩ = .ok (os'.flatMap (· ++ [10#8])) ∧ os' = [[]] by
    obtain ⟨os', h1, h2⟩ := hx
    rw [h1, h2]
    rfl
  refine rcMain_sim hK l c hfit.size hfit.cr hfit.first hfit.count hfit.width
    (fun s ls post => (ls = [l] ∧ RcInv .code s ∧ post [[]]) ∨ (ls = [] ∧ post [])) ?_ ?_
    (fun os' => os' = [[]]) (Or.inl ⟨by rw [ht]; simp [hch], ⟨rfl, rfl, rfl⟩, rfl⟩)
  · rintro s post (⟨g, _⟩ | ⟨_, g⟩)
    · cases g
    · exact g
  · rintro B n i s l' ls post h1 h2 h3 h4 h5 h6 (⟨g1, g2, g3⟩ | ⟨g1, _⟩)
    · cases g1
      obtain ⟨e, s', a1, a2⟩ := rc_step_high h1 h3 h4 h5 g2.1 g2.2.1 g2.2.2 h2 h
      exact ⟨e, s', [], a1, a2, Or.inr ⟨rfl, g3⟩⟩
    · cases g1

theorem C101_bytes_refuted : ¬ C101_bytes_full := by
  intro h
  have := h (fun _ n => n) [195#8, 169#8] 0 (fun _ n => by simp) (fit_of (by decide) (by decide) (by decide)) (by decide) (by decide)
  rw [C101_high (fun _ n => by simp) [195#8, 169#8] 0 (by decide) (by decide) (by decide)] at this
  exact absurd (Res.ok.inj this) (by decide +kernel)

/-- Full statement: no text below one million bytes makes the tool access memory outside of its arrays. -/
def C101_safe_full : Prop := ∀ (K : RKernel) (d : List Byte) (c : Nat), NoErr K → d.length < 1000000 → rcMain K ⟨d, c⟩ ≠ .ub

/-- **C101.** A text whose first line is empty: the byte before the array is read. -/
theorem C101_first_line {K : RKernel} (hK : NoErr K) (d : List Byte) (c : Nat) (h : d.length < 999999) : rcMain K ⟨10#8 :: d, c⟩ = .ub := by
  obtain ⟨B, s', e, hs, _⟩ := rcReadfile_eq hK (10#8 :: d).length (10#8 :: d) c (fun _ => 0#8) 0 (Nat.le_refl _) (by simp; omega)
  rw [Nat.zero_add] at e
  rw [rcMain, e, Res.ok_bind]
  simp only
  rw [rcSplit, if_neg (by simp), if_neg (by simp only [rcBufsize, List.length_cons]; omega), Int.toNat_natCast]
  have hline : IsLine (rcPut B (10#8 :: d).length [10#8]) 0 0 := by
    refine ⟨by omega, fun k hk => by omega, ?_⟩
    rw [rcPut, if_neg (by simp)]
    exact hs.1
  obtain ⟨start, a1, a2, a3, es⟩ := rcStep_code hline (n := 0) (by omega) (by omega) (s := ⟨false, false, 0, false⟩) rfl rfl rfl
  have hstep : rcStep (rcPut B (10#8 :: d).length [10#8]) 0 0 ⟨false, false, 0, false⟩ = .ub := by
    rw [es, rcFin]
    rfl
  simp only
  rw [List.length_cons, rcLines, if_pos (by omega), ← List.length_cons (a := 10#8), hstep]
  rfl

/-- **C101.** A text of one million bytes or more: the newline behind the text, or the text itself, is stored behind the array. -/
theorem C101_large {K : RKernel} (hK : NoErr K) (d : List Byte) (c : Nat) (h : 1000000 ≤ d.length) : rcMain K ⟨d, c⟩ = .ub := by
  by_cases he : d.length = 1000000
  · obtain ⟨B, s', e, hs, _⟩ := rcReadfile_eq hK d.length d c (fun _ => 0#8) 0 (Nat.le_refl _) (by omega)
    rw [Nat.zero_add] at e
    rw [rcMain, e, Res.ok_bind]
    simp only
    rw [rcSplit, if_neg (by omega), if_pos (by simp only [rcBufsize]; omega)]
    rfl
  · rw [rcMain, rcReadfile_over hK d.length d c _ 0 (Nat.le_refl _) (by omega) (by omega)]
    rfl

/-- **C101.** A first line that starts with 100000 blanks or more: the line written for debugging overruns its sixteen bytes. -/
theorem C101_wide {K : RKernel} (hK : NoErr K) (m c : Nat) (h1 : 100000 ≤ m) (h2 : m < 1000000) : rcMain K ⟨List.replicate m 32#8, c⟩ = .ub := by
  have hlen : (List.replicate m 32#8).length = m := by simp
  obtain ⟨B, s', e, hs, _⟩ := rcReadfile_eq hK m (List.replicate m 32#8) c (fun _ => 0#8) 0 (by simp) (by rw [hlen]; omega)
  rw [Nat.zero_add] at e
  rw [rcMain, e, Res.ok_bind]
  simp only
  rw [rcSplit, if_neg (by rw [hlen]; omega), if_neg (by rw [hlen]; simp only [rcBufsize]; omega), Int.toNat_natCast, hlen]
  have hB : ∀ t, t < m → rcPut B m [10#8] t = 32#8 := by
    intro t ht
    have := sitsAt_get hs t (by rw [hlen]; exact ht)
    rw [rcPut, if_neg (by omega)]
    simpa using this
  have hline : IsLine (rcPut B m [10#8]) 0 m := by
    refine ⟨by omega, ?_, by simp [rcPut]⟩
    intro k hk
    rw [Nat.zero_add, hB k hk]
    exact ⟨by decide, by decide⟩
  obtain ⟨start, el, a1, a2, a3, a4⟩ := rcLead_spec hline (rcBufsize - 0) 0 (by omega) (by simp only [rcBufsize]; omega)
  have hst : start = m := by
    refine Decidable.byContradiction fun hx => ?_
    have := a4 (by omega)
    rw [Nat.zero_add, hB start (by omega)] at this
    exact absurd this (by decide +kernel)
  subst hst
  have e2 := rcEol_spec hline (rcBufsize - (0 + start)) start (Nat.le_refl _) (by simp only [rcBufsize]; omega)
  have hw : ∀ k x, 10 ^ k ≤ x → k + 1 ≤ rcDigits x := by
    intro k
    induction k with
    | zero => intro x hx; rw [rcDigits]; split <;> omega
    | succ k ih =>
      intro x hx
      rw [Nat.pow_succ] at hx
      have hp : 0 < 10 ^ k := Nat.pow_pos (by omega)
      rw [rcDigits, if_neg (by omega)]
      have := ih (x / 10) (by omega)
      omega
  have w := hw 5 start (by omega)
  have hstep : rcStep (rcPut B start [10#8]) 0 0 ⟨false, false, 0, false⟩ = .ub := by
    rw [rcStep, el, Res.ok_bind, e2, Res.ok_bind, if_neg (by decide +kernel), if_pos]
    simp only [rcWidth]
    omega
  simp only
  cases start with
  | zero => omega
  | succ k =>
    rw [rcLines, if_pos (by omega), hstep]
    rfl

theorem C101_safe_refuted : ¬ C101_safe_full := fun h => h (fun _ n => n) [10#8] 0 (fun _ n => by simp) (by decide) (C101_first_line (fun _ n => by simp) [] 0 (by decide))

/-- A text: a comment of its own, code with a string that looks like a comment, a division, a comment that starts behind code and ends before code, a `//`
comment that is continued. -/
def rcExample : List Byte := rcText "  /* a\n b **/\nx = \"/*\\\"*/\" / 2; \t\ny; /* c\n*/ z;\n// d \\\n e */\n\nf;"

/-- C101, concretely: what is written for it. -/
example : rcMain (fun _ n => n) ⟨rcExample, 0⟩ = .ok (rcText "\n\nx = \"/*\\\"*/\" / 2;\ny; \n z;\n\n\n\nf;\n") := by
  have hb : bodies rcExample = [rcText "  " ++ 47#8 :: 42#8 :: rcText " a", rcText " b *" ++ 42#8 :: 47#8 :: [], rcText "x = \"/*\\\"*/\" / 2; \t",
      rcText "y; " ++ 47#8 :: 42#8 :: rcText " c", [] ++ 42#8 :: 47#8 :: rcText " z;", [] ++ 47#8 :: 47#8 :: rcText " d \\", rcText " e */", [], rcText "f;"] := by
    decide +kernel
  have ho : rcText "\n\nx = \"/*\\\"*/\" / 2;\ny; \n z;\n\n\n\nf;\n"
      = joinLines [[], trimEnd [], trimEnd (rcText "x = \"/*\\\"*/\" / 2; \t"), rcText "y; ", trimEnd (rcText " z;"), [], [], trimEnd [], trimEnd (rcText "f;")] := by
    decide +kernel
  rw [ho]
  refine C101_doc_partial (fun _ n => by simp) rcExample 0 (fit_of (by decide +kernel) (by decide +kernel) (by decide +kernel)) (ascii_of (by decide +kernel)) _ ?_
  rw [hb]
  refine .open _ _ _ _ (by intro c hc; revert c; decide +kernel) (noEnd_of (by decide +kernel)) ?_
  refine .close _ _ _ _ (noEnd_of (by decide +kernel)) .nil ?_
  refine .code _ _ _ ?_ ?_
  · rw [show trimEnd (rcText "x = \"/*\\\"*/\" / 2; \t") = [120#8, 32#8, 61#8, 32#8] ++ 34#8 :: ([47#8, 42#8, 92#8, 34#8, 42#8, 47#8] ++ 34#8 :: [32#8, 47#8, 32#8, 50#8, 59#8]) by decide +kernel]
    repeat (refine .chr _ _ (by decide) (by decide) ?_)
    refine .str _ _ ?_ ?_
    · exact .chr _ _ (by decide) (by decide) (.chr _ _ (by decide) (by decide) (.esc _ _ (by decide) (.chr _ _ (by decide) (by decide) (.chr _ _ (by decide) (by decide) .nil))))
    · refine .chr _ _ (by decide) (by decide) (.slash _ _ (by decide) (by decide) ?_)
      repeat (refine .chr _ _ (by decide) (by decide) ?_)
      exact .nil
  · refine .tail _ _ _ _ ?_ ?_ (by decide +kernel) (noEnd_of (by decide +kernel)) ?_
    · rw [show rcText "y; " = [121#8, 59#8, 32#8] by decide +kernel]
      repeat (refine .chr _ _ (by decide) (by decide) ?_)
      exact .nil
    · intro hx
      exact absurd (hx 121#8 (by decide +kernel)) (by decide)
    · refine .close _ _ _ _ (noEnd_of (by decide +kernel)) ?_ ?_
      · rw [show trimEnd (rcText " z;") = [32#8, 122#8, 59#8] by decide +kernel]
        repeat (refine .chr _ _ (by decide) (by decide) ?_)
        exact .nil
      · refine .line _ _ _ _ (fun c hc => by simp at hc) ?_
        rw [if_pos (by decide +kernel)]
        refine .more _ _ _ ?_
        rw [if_neg (by decide +kernel)]
        refine .code _ _ _ .nil (.code _ _ _ ?_ (.nil _))
        rw [show trimEnd (rcText "f;") = [102#8, 59#8] by decide +kernel]
        repeat (refine .chr _ _ (by decide) (by decide) ?_)
        exact .nil

/-- C101: two lines without a slash lose their blanks at the end. -/
example : rcMain (fun _ n => n) ⟨rcText "a  \n b\n", 0⟩ = .ok (rcText "a\n b\n") := by
  rw [C101_copy (fun _ n => by simp) _ 0 (fit_of (by decide +kernel) (by decide +kernel) (by decide +kernel))
    (ascii_of (by decide +kernel)) (by decide +kernel)]
  decide +kernel

/-- C101: the lines of the first theorem, for a comment. -/
example : ∃ os, rcMain (fun _ n => n) ⟨rcText "a/*b*/c\n", 0⟩ = .ok (joinLines os) ∧ os.length = 1 ∧
    ∀ x ∈ os.zip [rcText "a/*b*/c"], x.1 <:+: x.2 := by
  have h := C101_shape_partial (K := fun _ n => n) (fun _ n => by simp) (rcText "a/*b*/c\n") 0
    (fit_of (by decide +kernel) (by decide +kernel) (by decide +kernel))
  rwa [show bodies (rcText "a/*b*/c\n") = [rcText "a/*b*/c"] by decide +kernel] at h

/-- C101: three bytes of UTF-8 give an empty line; an empty first line is undefined. -/
example : rcMain (fun _ n => n) ⟨[226#8, 130#8, 172#8], 0⟩ = .ok [10#8] ∧
    rcMain (fun _ n => n) ⟨10#8 :: rcText "a\n", 0⟩ = .ub :=
  ⟨C101_high (fun _ n => by simp) _ 0 (by decide) (by decide) (by decide),
   C101_first_line (fun _ n => by simp) _ 0 (by decide +kernel)⟩

/-- C101: a file of a million blanks. -/
example : rcMain (fun _ n => n) ⟨List.replicate 1000000 32#8, 0⟩ = .ub :=
  C101_large (fun _ n => by simp) _ 0 (by rw [List.length_replicate])

end Minilib

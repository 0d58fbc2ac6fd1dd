import Verif.Props.Streams
import Verif.Props.Prints
import Verif.Props.Str
import Verif.Model.Tools
/-
C89: the filters stripblanks and stripblanklines.
-/

set_option autoImplicit false

namespace Minilib
open Mem Spec

/-- The lines of a text, each with its newline. -/
def _root_.Spec.textLines : List Byte → List (List Byte)
  | [] => []
  | b :: d => if b = 10#8 then [b] :: textLines d else
    match textLines d with
    | [] => [[b]]
    | l :: ls => (b :: l) :: ls

/-- A blank: space, tab, newline, vertical tab, form feed, carriage return. -/
def _root_.Spec.blank (c : Byte) : Bool := c = 32#8 || (9 ≤ c.toNat && c.toNat ≤ 13)

/-- What stripblanks makes of a line: without leading blanks; nothing is left of an empty line. -/
def _root_.Spec.stripLead (l : List Byte) : List Byte := l.dropWhile blank

/-- What stripblanklines makes of a line. -/
def _root_.Spec.stripEmpty (l : List Byte) : List Byte := if l.all blank then [] else l

theorem isspace_blank (c : Byte) : isspace (c.signExtend 32) = blank c := by
  revert c
  decide +kernel

theorem textLines_ne {d : List Byte} : ∀ l ∈ textLines d, l ≠ [] := by
  induction d with
  | nil => intro l hl; cases hl
  | cons b d ih =>
    intro l hl
    rw [textLines] at hl
    by_cases hb : b = 10#8
    · rw [if_pos hb] at hl
      rcases List.mem_cons.mp hl with h | h
      · rw [h]; simp
      · exact ih l h
    · rw [if_neg hb] at hl
      cases ht : textLines d with
      | nil => rw [ht] at hl; simp at hl; rw [hl]; simp
      | cons x xs =>
        rw [ht] at hl
        rcases List.mem_cons.mp hl with h | h
        · rw [h]; simp
        · exact ih l (by rw [ht]; simp [h])

theorem textLines_flatten (d : List Byte) : (textLines d).flatten = d := by
  induction d with
  | nil => rfl
  | cons b d ih =>
    rw [textLines]
    by_cases hb : b = 10#8
    · rw [if_pos hb]; simp [ih]
    · rw [if_neg hb]
      cases ht : textLines d with
      | nil => rw [ht] at ih; simp [← ih]
      | cons x xs => rw [ht] at ih; simpa using ih

/-- The first line, seen by `fgets`. -/
theorem lineOf_textLines : ∀ (d : List Byte) (n : Nat) (l : List Byte) (ls : List (List Byte)), 0#8 ∉ d → textLines d = l :: ls →
    (l.length ≤ n → lineOf n d = l ∧ textLines (afterLine n d) = ls) ∧ (n < l.length → (lineOf n d).length = n) := by
  intro d
  induction d with
  | nil => intro n l ls _ h; cases h
  | cons b d ih =>
    intro n l ls h0 h
    simp only [List.mem_cons, not_or] at h0
    have hb0 : b ≠ 0#8 := fun h => h0.1 h.symm
    rw [textLines] at h
    cases n with
    | zero =>
      refine ⟨fun hl => ?_, fun _ => rfl⟩
      have : l = [] := List.length_eq_zero_iff.mp (by omega)
      exact absurd this (textLines_ne (d := b :: d) l (by rw [textLines, h]; simp))
    | succ n =>
      by_cases hb : b = 10#8
      · rw [if_pos hb] at h
        cases h
        refine ⟨fun _ => ?_, fun hl => ?_⟩
        · simp [lineOf, afterLine, hb]
        · simp at hl
      · rw [if_neg hb] at h
        rw [lineOf, if_neg hb0, if_neg hb, afterLine, if_neg hb0, if_neg hb]
        cases ht : textLines d with
        | nil =>
          rw [ht] at h
          cases h
          have hd : d = [] := by rw [← textLines_flatten d, ht]; rfl
          subst hd
          cases n with
          | zero => exact ⟨fun _ => ⟨rfl, rfl⟩, fun hl => by simp at hl⟩
          | succ n => exact ⟨fun _ => ⟨rfl, rfl⟩, fun hl => by simp at hl⟩
        | cons x xs =>
          rw [ht] at h
          cases h
          have := ih n x ls h0.2 ht
          refine ⟨fun hl => ?_, fun hl => ?_⟩
          · obtain ⟨g1, g2⟩ := this.1 (by simpa using hl)
            rw [g1]
            exact ⟨rfl, g2⟩
          · have := this.2 (by simpa using hl)
            simp [this]

theorem fgetsLoop_ub {K : RKernel} (hK : NoErr K) (ung : Bool) (n : Nat) : ∀ (m : Mem) (buf : Nat) (size : Int) (F : Stream),
    (size - 1).toNat = n → size ≠ INT_MIN → m (buf + 1 + (lineOf n (avail ung F)).length) = none →
    fgetsLoop K ung m buf size F = .ub := by
  induction n with
  | zero =>
    intro m buf size F hn h0 hm
    rw [fgetsLoop, decInt_ok h0]
    simp only [Res.ok_bind]
    rw [if_neg (by omega), store_none (by simpa [lineOf] using hm)]
    rfl
  | succ n ih =>
    intro m buf size F hn h0 hm
    obtain ⟨g1, g2⟩ := fgetc_byte hK ung F
    rw [fgetsLoop, decInt_ok h0]
    simp only [Res.ok_bind]
    rw [if_pos (by omega), g1]
    cases hx : m (buf + 1) with
    | none => rw [store_none hx]; rfl
    | some x =>
      rw [store_some hx]
      simp only [Res.ok_bind]
      cases hd : avail ung F with
      | nil => rw [hd] at hm; simp [lineOf, hx] at hm
      | cons b d =>
        rw [hd] at g2 hm
        simp only [List.tail_cons] at g2
        rw [List.headD_cons]
        by_cases hb0 : b = 0#8
        · simp [lineOf, hb0, hx] at hm
        · rw [if_neg hb0]
          rw [lineOf, if_neg hb0] at hm
          by_cases hb1 : b = 10#8
          · rw [if_pos hb1] at hm ⊢
            rw [fgetsLoop, decInt_ok (by decide)]
            simp only [Res.ok_bind]
            rw [if_neg (by omega), store_none (by rw [upd_ne (by omega)]; simpa using hm)]
            rfl
          · rw [if_neg hb1] at hm ⊢
            apply ih _ _ _ _ (by omega) (by omega)
            rw [g2, upd_ne (by omega)]
            rw [← hm]
            congr 1
            simp
            omega

/-- fgets writes behind its buffer when the line fills it. -/
theorem fgets_ub {K : RKernel} (hK : NoErr K) (ung : Bool) {m : Mem} {buf n : Nat} {F : Stream} (hn : n < 2147483647)
    (hne : lineOf (n + 1) (avail ung F) ≠ []) (hm : m (buf + (lineOf (n + 1) (avail ung F)).length) = none) :
    fgets K ung m buf ((n : Int) + 1) F = .ub := by
  obtain ⟨g1, g2⟩ := fgetc_byte hK ung F
  unfold fgets
  rw [g1]
  dsimp only
  cases hd : avail ung F with
  | nil => rw [hd] at hne; exact absurd rfl hne
  | cons b d =>
    rw [hd] at g2 hm hne
    simp only [List.tail_cons] at g2
    rw [List.headD_cons]
    cases hx : m buf with
    | none => rw [store_none hx]; rfl
    | some x =>
      rw [store_some hx]
      simp only [Res.ok_bind]
      by_cases hb0 : b = 0#8
      · simp [lineOf, hb0] at hne
      · rw [if_neg hb0]
        rw [lineOf, if_neg hb0] at hm
        by_cases hb1 : b = 10#8
        · rw [if_pos hb1] at hm ⊢
          rw [fgetsLoop_ub hK ung 0 _ _ _ _ (by omega) (by decide) (by rw [upd_ne (by omega)]; simpa [lineOf] using hm)]
          rfl
        · rw [if_neg hb1] at hm ⊢
          rw [fgetsLoop_ub hK ung n _ _ _ _ (by omega) (by omega) (by
            rw [upd_ne (by omega), g2, ← hm]
            congr 1
            simp
            omega)]
          rfl

theorem skipSpace_eq {m : Mem} {buf : Nat} : ∀ (s : List Byte) (a : Nat), m.IsStr (buf + a) s → skipSpace m buf a = .ok (a + (s.takeWhile blank).length) := by
  intro s
  induction s with
  | nil =>
    intro a h
    rw [skipSpace, load_some (isStr_nil.mp h)]
    rfl
  | cons c s ih =>
    intro a h
    rw [isStr_cons] at h
    rw [skipSpace, load_some h.1]
    simp only [Res.ok_bind]
    rw [isspace_blank, List.takeWhile_cons]
    by_cases hc : blank c
    · rw [if_pos hc, if_pos hc, ih (a + 1) h.2.2]
      congr 1
      simp
      omega
    · rw [if_neg hc, if_neg hc]
      rfl

theorem IsStr.drop {m : Mem} : ∀ (k : Nat) {p : Nat} {s : List Byte}, m.IsStr p s → k ≤ s.length → m.IsStr (p + k) (s.drop k)
  | 0, _, _, h, _ => h
  | k + 1, p, [], h, hk => by simp at hk
  | k + 1, p, c :: s, h, hk => by
    rw [isStr_cons] at h
    have := IsStr.drop k h.2.2 (by simpa using hk)
    rw [List.drop_succ_cons, show p + (k + 1) = p + 1 + k by omega]
    exact this

theorem mem_takeWhile_true {p : Byte → Bool} {l : List Byte} {x : Byte} (h : x ∈ l.takeWhile p) : p x = true := by
  induction l with
  | nil => cases h
  | cons c l ih =>
    rw [List.takeWhile_cons] at h
    by_cases hc : p c
    · rw [if_pos hc] at h
      rcases List.mem_cons.mp h with h | h
      · rw [h]; exact hc
      · exact ih h
    · rw [if_neg hc] at h; cases h

theorem dropWhile_all_nil {p : Byte → Bool} {l : List Byte} (h : ∀ x ∈ l, p x = true) : l.dropWhile p = [] := by
  induction l with
  | nil => rfl
  | cons c l ih =>
    rw [List.dropWhile_cons, if_pos (h c (by simp))]
    exact ih (fun x hx => h x (by simp [hx]))

theorem drop_takeWhile_length (p : Byte → Bool) (l : List Byte) : l.drop (l.takeWhile p).length = l.dropWhile p := by
  induction l with
  | nil => rfl
  | cons c l ih =>
    rw [List.takeWhile_cons, List.dropWhile_cons]
    by_cases hc : p c
    · rw [if_pos hc, if_pos hc]; simpa using ih
    · rw [if_neg hc, if_neg hc]; rfl

/-- What a filter makes of a line. -/
def stripOne (lead : Bool) (l : List Byte) : List Byte := if lead then stripLead l else stripEmpty l

/-- One line that fits. -/
theorem stripMain_step {lead : Bool} {K : RKernel} {W : WKernel} {ung : Bool} {m : Mem} {buf : Nat} {F : Stream} {w : Writes} (hK : NoErr K) (hW : Accepting W)
    (hb : buf ≠ 0) (hm : m.Mapped buf 1024) (hne : lineOf 1024 (avail ung F) ≠ []) (hl : (lineOf 1024 (avail ung F)).length ≤ 1023)
    (h0 : 0#8 ∉ lineOf 1024 (avail ung F)) :
    ∃ F' w', stripMain lead K W ung m buf F w = stripMain lead K W ung (m.write buf (lineOf 1024 (avail ung F) ++ [0#8])) buf F' w' ∧
      avail ung F' = afterLine 1024 (avail ung F) ∧
      ∀ f, delivered f w' = delivered f w ++ if f = 1 then stripOne lead (lineOf 1024 (avail ung F)) else [] := by
  obtain ⟨F', e, _, ha, _⟩ := fgets_exact hK ung (n := 1023) (F := F) (by omega) (hm.mono (by rw [show 1023 + 1 = 1024 from rfl]; omega))
  generalize hL : lineOf 1024 (avail ung F) = L at *
  rw [show ((1023 : Nat) : Int) + 1 = 1024 from rfl, if_neg hne] at e
  have hs : (m.write buf (L ++ [0#8])).IsStr buf L := by
    have := write_holds m buf (L ++ [0#8])
    rw [holds_append, holds_cons] at this
    exact ⟨this.1, this.2.1, fun b hb => fun h => h0 (h ▸ hb)⟩
  have hlen : strlen (m.write buf (L ++ [0#8])) buf = .ok L.length := C01_strlen hs hb (by omega)
  have hsk := skipSpace_eq (buf := buf) L 0 hs
  rw [Nat.zero_add] at hsk
  have htw : (L.takeWhile blank).length ≤ L.length := (List.takeWhile_sublist _).length_le
  have hdrop := IsStr.drop _ hs htw
  rw [drop_takeWhile_length] at hdrop
  refine ⟨F', ?_⟩
  cases hd : L.dropWhile blank with
  | nil =>
    refine ⟨w, ?_, ha, fun f => ?_⟩
    · rw [hd] at hdrop
      rw [stripMain, e]
      simp only [Res.ok_bind]
      rw [if_pos hb, hlen]
      simp only [Res.ok_bind]
      rw [if_neg (by omega), hsk]
      simp only [Res.ok_bind]
      rw [load_some (isStr_nil.mp hdrop)]
      simp only [Res.ok_bind]
      rw [if_neg (by simp)]
    · have hall : L.all blank = true := by
        rw [List.all_eq_true]
        intro x hx
        rw [← List.takeWhile_append_dropWhile (p := blank) (l := L), hd, List.append_nil] at hx
        exact mem_takeWhile_true hx
      have : stripOne lead L = [] := by
        unfold stripOne stripLead stripEmpty
        rw [hd, if_pos hall]
        split <;> rfl
      rw [this]
      simp
  | cons c t =>
    rw [hd] at hdrop
    have hc0 := (isStr_cons.mp hdrop).2.1
    have hall : ¬ L.all blank = true := by
      intro h
      rw [List.all_eq_true] at h
      have h1 : L.dropWhile blank = [] := by
        exact dropWhile_all_nil h
      rw [h1] at hd
      cases hd
    obtain ⟨w', e1, e2⟩ := C88_prints (K := W) (m := m.write buf (L ++ [0#8])) (fd := 1) (ps := [if lead then buf + (L.takeWhile blank).length else buf])
      (ss := [stripOne lead L]) hW (by simp) ⟨by
        unfold stripOne stripLead stripEmpty
        rw [if_neg hall, hd]
        cases lead
        · exact hs
        · exact hdrop, trivial⟩ (fun p hp => by
          rw [List.mem_singleton.mp hp]
          split <;> omega) (by simp) (by
        have : (stripOne lead L).length ≤ L.length := by
          unfold stripOne stripLead stripEmpty
          rw [if_neg hall]
          split
          · exact (List.dropWhile_sublist _).length_le
          · exact Nat.le_refl _
        simp
        omega) w
    refine ⟨w', ?_, ha, fun f => by rw [e2]; simp⟩
    rw [stripMain, e]
    simp only [Res.ok_bind]
    rw [if_pos hb, hlen]
    simp only [Res.ok_bind]
    rw [if_neg (by omega), hsk]
    simp only [Res.ok_bind]
    rw [load_some (isStr_cons.mp hdrop).1]
    simp only [Res.ok_bind]
    rw [if_pos hc0, e1]
    rfl

theorem lineOf_sub (n : Nat) : ∀ d, ∀ b ∈ lineOf n d, b ∈ d ∧ b ≠ 0#8 := by
  induction n with
  | zero => intro d b hb; cases hb
  | succ n ih =>
    intro d b hb
    cases d with
    | nil => cases hb
    | cons c d =>
      rw [lineOf] at hb
      by_cases h0 : c = 0#8
      · rw [if_pos h0] at hb; cases hb
      · rw [if_neg h0] at hb
        by_cases h1 : c = 10#8
        · rw [if_pos h1] at hb
          rw [List.mem_singleton.mp hb]
          exact ⟨by simp, h0⟩
        · rw [if_neg h1] at hb
          rcases List.mem_cons.mp hb with h | h
          · rw [h]; exact ⟨by simp, h0⟩
          · have := ih d b h
            exact ⟨by simp [this.1], this.2⟩

theorem stripMain_eq {lead : Bool} {K : RKernel} {W : WKernel} {ung : Bool} {buf : Nat} (hK : NoErr K) (hW : Accepting W) (hb : buf ≠ 0) :
    ∀ (ls : List (List Byte)) (m : Mem) (F : Stream) (w : Writes), m.Mapped buf 1024 → m (buf + 1024) = none → 0#8 ∉ avail ung F →
      textLines (avail ung F) = ls →
      ((∀ l ∈ ls, l.length ≤ 1023) → ∃ m' F' w', stripMain lead K W ung m buf F w = .ok (m', F', w') ∧ avail ung F' = [] ∧
        (∀ f, delivered f w' = delivered f w ++ if f = 1 then ls.flatMap (stripOne lead) else []) ∧
        ∀ a, (a < buf ∨ buf + 1024 ≤ a) → m' a = m a) ∧
      ((∃ l ∈ ls, 1024 ≤ l.length) → stripMain lead K W ung m buf F w = .ub) := by
  intro ls
  induction ls with
  | nil =>
    intro m F w hm hm1 h0 ht
    have hav : avail ung F = [] := by rw [← textLines_flatten (avail ung F), ht]; rfl
    refine ⟨fun _ => ?_, fun ⟨l, hl, _⟩ => by cases hl⟩
    obtain ⟨F', e, _, ha, _⟩ := fgets_exact hK ung (n := 1023) (F := F) (by omega) (hm.mono (by rw [hav]; simp [lineOf]))
    rw [hav, show lineOf (1023 + 1) [] = [] from rfl, if_pos rfl] at e
    refine ⟨m.write buf [0#8], F', w, ?_, by rw [ha, hav]; rfl, fun f => by simp, fun a h => write_outside _ _ _ _ (by simp; omega)⟩
    rw [stripMain]
    rw [show ((1023 : Nat) : Int) + 1 = 1024 from rfl] at e
    rw [e]
    simp only [Res.ok_bind]
    rw [if_neg (by simp)]
    rfl
  | cons l ls ih =>
    intro m F w hm hm1 h0 ht
    have hl := lineOf_textLines (avail ung F) 1024 l ls h0 ht
    have hln : l ≠ [] := textLines_ne (d := avail ung F) l (by rw [ht]; simp)
    by_cases hlen : l.length ≤ 1023
    · obtain ⟨g1, g2⟩ := hl.1 (by omega)
      obtain ⟨F', w', e, ha, hw⟩ := stripMain_step (lead := lead) (W := W) (w := w) hK hW hb hm (by rw [g1]; exact hln) (by rw [g1]; exact hlen)
        (fun h => (lineOf_sub _ _ _ h).2 rfl)
      rw [g1] at e hw
      have := ih (m.write buf (l ++ [0#8])) F' w' (hm.write _ _) (by rw [write_outside _ _ _ _ (by simp; omega)]; exact hm1) (by
        rw [ha]
        intro h
        have := lineOf_split 1024 _ h0
        rw [← this] at h0
        exact h0 (by simp [h])) (by rw [ha]; exact g2)
      constructor
      · intro hall
        obtain ⟨m', F2, w2, e2, hav, hd, hfr⟩ := this.1 (fun x hx => hall x (by simp [hx]))
        refine ⟨m', F2, w2, by rw [e, e2], hav, fun f => ?_, fun a h => ?_⟩
        · rw [hd, hw]
          split <;> simp
        · rw [hfr a h, write_outside _ _ _ _ (by simp; omega)]
      · rintro ⟨x, hx, hx2⟩
        rcases List.mem_cons.mp hx with h | h
        · rw [h] at hx2; omega
        · rw [e]
          exact this.2 ⟨x, h, hx2⟩
    · refine ⟨fun hall => absurd (hall l (by simp)) hlen, fun _ => ?_⟩
      have h1024 : (lineOf 1024 (avail ung F)).length = 1024 := by
        by_cases h : l.length ≤ 1024
        · rw [(hl.1 h).1]; omega
        · exact hl.2 (by omega)
      have := fgets_ub hK ung (m := m) (buf := buf) (n := 1023) (F := F) (by omega) (by
        intro h
        rw [show 1023 + 1 = 1024 from rfl] at h
        rw [h] at h1024
        cases h1024) (by rw [show 1023 + 1 = 1024 from rfl, h1024]; exact hm1)
      rw [show ((1023 : Nat) : Int) + 1 = 1024 from rfl] at this
      rw [stripMain, this]
      rfl

/-- C89, in full: for every input the filters write the stripped lines to standard output, nothing else, and read the whole input. -/
def C89_strip_full (lead : Bool) : Prop :=
  ∀ (K : RKernel) (W : WKernel) (ung : Bool) (m : Mem) (buf : Nat) (F : Stream) (w : Writes), NoErr K → Accepting W → buf ≠ 0 → m.Mapped buf 1024 →
    m (buf + 1024) = none →
    ∃ m' F' w', stripMain lead K W ung m buf F w = .ok (m', F', w') ∧ avail ung F' = [] ∧
      ∀ f, delivered f w' = delivered f w ++ if f = 1 then (textLines (avail ung F)).flatMap (if lead then stripLead else stripEmpty) else []

theorem stripOne_fun (lead : Bool) : stripOne lead = if lead then stripLead else stripEmpty := by cases lead <;> rfl

/-- C89, stripblanks: proved for texts without NUL whose lines have at most 1023 bytes. Missing: other texts, see below. -/
theorem C89_stripblanks_partial {K : RKernel} {W : WKernel} {ung : Bool} {m : Mem} {buf : Nat} {F : Stream} {w : Writes} (hK : NoErr K) (hW : Accepting W) (hb : buf ≠ 0)
    (hm : m.Mapped buf 1024) (he : m (buf + 1024) = none) (h0 : 0#8 ∉ avail ung F) (hl : ∀ l ∈ textLines (avail ung F), l.length ≤ 1023) :
    ∃ m' F' w', stripMain true K W ung m buf F w = .ok (m', F', w') ∧ avail ung F' = [] ∧
      (∀ f, delivered f w' = delivered f w ++ if f = 1 then (textLines (avail ung F)).flatMap stripLead else []) ∧
      ∀ a, (a < buf ∨ buf + 1024 ≤ a) → m' a = m a := by
  have := (stripMain_eq (lead := true) (W := W) hK hW hb _ m F w hm he h0 rfl).1 hl
  rwa [stripOne_fun, if_pos rfl] at this

/-- C89, stripblanklines: likewise. -/
theorem C89_stripblanklines_partial {K : RKernel} {W : WKernel} {ung : Bool} {m : Mem} {buf : Nat} {F : Stream} {w : Writes} (hK : NoErr K) (hW : Accepting W) (hb : buf ≠ 0)
    (hm : m.Mapped buf 1024) (he : m (buf + 1024) = none) (h0 : 0#8 ∉ avail ung F) (hl : ∀ l ∈ textLines (avail ung F), l.length ≤ 1023) :
    ∃ m' F' w', stripMain false K W ung m buf F w = .ok (m', F', w') ∧ avail ung F' = [] ∧
      (∀ f, delivered f w' = delivered f w ++ if f = 1 then (textLines (avail ung F)).flatMap stripEmpty else []) ∧
      ∀ a, (a < buf ∨ buf + 1024 ≤ a) → m' a = m a := by
  have := (stripMain_eq (lead := false) (W := W) hK hW hb _ m F w hm he h0 rfl).1 hl
  rwa [stripOne_fun, if_neg (by decide)] at this

theorem textLines_replicate (n : Nat) : textLines (List.replicate (n + 1) 97#8) = [List.replicate (n + 1) 97#8] := by
  induction n with
  | zero => rfl
  | succ n ih =>
    rw [List.replicate_succ, textLines, if_neg (by decide), ih]

theorem buf1024 : (object 16 (List.replicate 1024 0#8)).Mapped 16 1024 ∧ (object 16 (List.replicate 1024 0#8)) (16 + 1024) = none := by
  constructor
  · have := (holds_object 16 (List.replicate 1024 0#8)).mapped
    rwa [List.length_replicate] at this
  · have : (List.replicate 1024 (0#8 : Byte))[16 + 1024 - 16]? = none := List.getElem?_eq_none (by rw [List.length_replicate])
    unfold object
    rw [if_pos (by omega), this]

/-- C89 fails: any text without NUL that has a line of 1024 bytes or more overruns the buffer; the branch with the warning, for lines of this length, is never taken without it. -/
theorem C89_long_refuted : (∀ lead, ¬ C89_strip_full lead) ∧
    ∀ (lead : Bool) (K : RKernel) (W : WKernel) (ung : Bool) (m : Mem) (buf : Nat) (F : Stream) (w : Writes), NoErr K → Accepting W → buf ≠ 0 → m.Mapped buf 1024 →
      m (buf + 1024) = none → 0#8 ∉ avail ung F → (∃ l ∈ textLines (avail ung F), 1024 ≤ l.length) → stripMain lead K W ung m buf F w = .ub := by
  have key : ∀ (lead : Bool) (K : RKernel) (W : WKernel) (ung : Bool) (m : Mem) (buf : Nat) (F : Stream) (w : Writes), NoErr K → Accepting W → buf ≠ 0 → m.Mapped buf 1024 →
      m (buf + 1024) = none → 0#8 ∉ avail ung F → (∃ l ∈ textLines (avail ung F), 1024 ≤ l.length) → stripMain lead K W ung m buf F w = .ub :=
    fun lead K W ung m buf F w hK hW hb hm he h0 hl => (stripMain_eq (lead := lead) (W := W) hK hW hb _ m F w hm he h0 rfl).2 hl
  refine ⟨fun lead h => ?_, key⟩
  have hav : avail false ⟨0#32, ⟨List.replicate 1024 97#8, 0⟩⟩ = List.replicate 1024 97#8 := by unfold avail pushed; rw [if_neg (by decide)]; rfl
  obtain ⟨hm, he⟩ := buf1024
  have h1 := key lead (fun _ _ => 1) (fun _ _ l => l.length) false (object 16 (List.replicate 1024 0#8)) 16 ⟨0#32, ⟨List.replicate 1024 97#8, 0⟩⟩ []
    (fun _ _ => by show (0 : Int) ≤ 1; decide) (fun _ _ _ => rfl) (by decide) hm he (by rw [hav]; intro h; have := List.eq_of_mem_replicate h; revert this; decide)
    (by rw [hav, textLines_replicate]; exact ⟨_, List.mem_singleton_self _, by rw [List.length_replicate]⟩)
  obtain ⟨m', F', w', e, _⟩ := h (fun _ _ => 1) (fun _ _ l => l.length) false (object 16 (List.replicate 1024 0#8)) 16 ⟨0#32, ⟨List.replicate 1024 97#8, 0⟩⟩ []
    (fun _ _ => by show (0 : Int) ≤ 1; decide) (fun _ _ _ => rfl) (by decide) hm he
  rw [h1] at e
  cases e

/-- C89 fails: a line starting with a NUL ends the filters; nothing of what follows is written, and it stays unread. -/
theorem C89_nul_refuted : (∀ lead, ¬ C89_strip_full lead) ∧
    ∀ (lead : Bool) (K : RKernel) (W : WKernel) (ung : Bool) (m : Mem) (buf : Nat) (F : Stream) (w : Writes) (d : List Byte), NoErr K → buf ≠ 0 → m.Mapped buf 1024 →
      avail ung F = 0#8 :: d → ∃ m' F', stripMain lead K W ung m buf F w = .ok (m', F', w) ∧ avail ung F' = d := by
  have key : ∀ (lead : Bool) (K : RKernel) (W : WKernel) (ung : Bool) (m : Mem) (buf : Nat) (F : Stream) (w : Writes) (d : List Byte), NoErr K → buf ≠ 0 → m.Mapped buf 1024 →
      avail ung F = 0#8 :: d → ∃ m' F', stripMain lead K W ung m buf F w = .ok (m', F', w) ∧ avail ung F' = d := by
    intro lead K W ung m buf F w d hK hb hm hav
    have h2 : lineOf (1023 + 1) (0#8 :: d) = [] := by rw [lineOf, if_pos rfl]
    obtain ⟨F', e, _, ha, _⟩ := fgets_exact hK ung (n := 1023) (F := F) (by omega) (hm.mono (by rw [hav, h2]; simp))
    rw [hav, h2, if_pos rfl, show ((1023 : Nat) : Int) + 1 = 1024 from rfl] at e
    refine ⟨m.write buf ([] ++ [0#8]), F', ?_, by rw [ha, hav, afterLine, if_pos rfl]⟩
    rw [stripMain, e]
    simp only [Res.ok_bind]
    rw [if_neg (by simp)]
    rfl
  refine ⟨fun lead h => ?_, key⟩
  obtain ⟨hm, he⟩ := buf1024
  obtain ⟨m1, F1, e1, h1⟩ := key lead (fun _ _ => 1) (fun _ _ l => l.length) false (object 16 (List.replicate 1024 0#8)) 16 ⟨0#32, ⟨[0#8, 97#8], 0⟩⟩ [] [97#8]
    (fun _ _ => by show (0 : Int) ≤ 1; decide) (by decide) hm rfl
  obtain ⟨m', F', w', e, h2, _⟩ := h (fun _ _ => 1) (fun _ _ l => l.length) false (object 16 (List.replicate 1024 0#8)) 16 ⟨0#32, ⟨[0#8, 97#8], 0⟩⟩ []
    (fun _ _ => by show (0 : Int) ≤ 1; decide) (fun _ _ _ => rfl) (by decide) hm he
  rw [e1] at e
  cases e
  rw [h2] at h1
  cases h1

/-- The text "  a\n\n b" comes out as "a\nb" of stripblanks, and as "  a\n b" of stripblanklines. -/
example : (∃ m' F' w', stripMain true (fun _ _ => 1) (fun _ _ l => l.length) false (object 16 (List.replicate 1024 0#8)) 16
      ⟨0#32, ⟨[32#8, 32#8, 97#8, 10#8, 10#8, 32#8, 98#8], 0⟩⟩ [] = .ok (m', F', w') ∧ delivered 1 w' = [97#8, 10#8, 98#8] ∧ delivered 2 w' = []) ∧
    (∃ m' F' w', stripMain false (fun _ _ => 1) (fun _ _ l => l.length) false (object 16 (List.replicate 1024 0#8)) 16
      ⟨0#32, ⟨[32#8, 32#8, 97#8, 10#8, 10#8, 32#8, 98#8], 0⟩⟩ [] = .ok (m', F', w') ∧ delivered 1 w' = [32#8, 32#8, 97#8, 10#8, 32#8, 98#8]) := by
  obtain ⟨hm, he⟩ := buf1024
  constructor
  · obtain ⟨m', F', w', e, _, h, _⟩ := C89_stripblanks_partial (K := fun _ _ => 1) (W := fun _ _ l => l.length) (ung := false) (F := ⟨0#32, ⟨[32#8, 32#8, 97#8, 10#8, 10#8, 32#8, 98#8], 0⟩⟩) (w := [])
      (fun _ _ => by show (0 : Int) ≤ 1; decide) (fun _ _ _ => rfl) (by decide) hm he (by decide) (by decide)
    exact ⟨m', F', w', e, h 1, h 2⟩
  · obtain ⟨m', F', w', e, _, h, _⟩ := C89_stripblanklines_partial (K := fun _ _ => 1) (W := fun _ _ l => l.length) (ung := false) (F := ⟨0#32, ⟨[32#8, 32#8, 97#8, 10#8, 10#8, 32#8, 98#8], 0⟩⟩) (w := [])
      (fun _ _ => by show (0 : Int) ≤ 1; decide) (fun _ _ _ => rfl) (by decide) hm he (by decide) (by decide)
    exact ⟨m', F', w', e, h 1⟩

end Minilib

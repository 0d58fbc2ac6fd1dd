import Verif.Spec.Convertasm
import Verif.Model.Convertasm
/-
C115: turning an assembler file into C.
-/

set_option autoImplicit false

namespace Minilib

open _root_.Spec

/-- A statement other than an export the script can carry over; `names` are the names the program exports. -/
structure _root_.Spec.Carried (names : List Line) (s : Line) : Prop where
  quote : 34#8 ∉ s
  slash : 92#8 ∉ s
  two : ∃ a b, asmBlank a = false ∧ asmBlank b = false ∧ [a, b] <:+: s
  word : ¬ [103#8, 108#8, 111#8, 98#8, 97#8, 108#8] <:+: s
  label : ∀ n ∈ names, s ≠ n ++ [58#8] → ¬ (n ++ [58#8]) <:+: s

/-- The statements of a program the script can carry over. -/
def _root_.Spec.AsmOk (p : List Line) : Prop :=
  (∀ s ∈ p, exportOf s = none → Carried (exportsOf p) s) ∧
  ∀ n ∈ exportsOf p, n ≠ [] ∧ ∀ b ∈ n, asmBlank b = false

theorem reSpace_eq : reSpace = asmBlank := rfl

theorem dropWhile_blanks {p : Byte → Bool} {l : Line} (h : ∀ b ∈ l, p b = true) (r : Line) : (l ++ r).dropWhile p = r.dropWhile p := by
  induction l with
  | nil => rfl
  | cons b l ih =>
    rw [List.cons_append, List.dropWhile_cons, if_pos (h b (by simp))]
    exact ih (fun c hc => h c (by simp [hc]))

theorem rstrip_split (p : Byte → Bool) (l : Line) :
    ∃ bl, l = (l.reverse.dropWhile p).reverse ++ bl ∧ ∀ b ∈ bl, p b = true := by
  refine ⟨(l.reverse.takeWhile p).reverse, ?_, ?_⟩
  · rw [← List.reverse_append, List.takeWhile_append_dropWhile, List.reverse_reverse]
  · intro b hb
    rw [List.mem_reverse] at hb
    have := List.all_takeWhile (p := p) (l := l.reverse)
    exact List.all_eq_true.1 this b hb

theorem takeWhile_lead (l : Line) :
    (l.dropWhile asmBlank).takeWhile (· ≠ 35#8) = (l.takeWhile (· ≠ 35#8)).dropWhile asmBlank := by
  induction l with
  | nil => rfl
  | cons b l ih =>
    by_cases hb : asmBlank b = true
    · have h35 : b ≠ 35#8 := by rintro rfl; exact absurd hb (by decide)
      rw [List.dropWhile_cons, if_pos hb, List.takeWhile_cons, if_pos (by simpa using h35), List.dropWhile_cons, if_pos hb]
      exact ih
    · rw [List.dropWhile_cons, if_neg hb, List.takeWhile_cons]
      split
      · rw [List.dropWhile_cons, if_neg hb]
      · rfl

theorem takeWhile_hash {l : Line} (h : 35#8 ∉ l) : l.takeWhile (· ≠ 35#8) = l := by
  induction l with
  | nil => rfl
  | cons b l ih =>
    simp only [List.mem_cons, not_or] at h
    rw [List.takeWhile_cons, if_pos (by simpa using fun e => h.1 e.symm), ih h.2]

theorem head_dropWhile (p : Byte → Bool) (l : Line) : l.dropWhile p = [] ∨ ∃ b r, l.dropWhile p = b :: r ∧ p b = false := by
  induction l with
  | nil => exact .inl rfl
  | cons b l ih =>
    rw [List.dropWhile_cons]
    by_cases hb : p b = true
    · rw [if_pos hb]; exact ih
    · rw [if_neg hb]; exact .inr ⟨b, l, rfl, by simpa using hb⟩

/-- What the script makes of a line is its statement, with blanks behind it. -/
theorem clean_split (l : Line) : ∃ bl, reComment (reLead l) = stmtOf l ++ bl ∧ (∀ b ∈ bl, asmBlank b = true) ∧
    (stmtOf l = [] → bl = []) := by
  unfold reComment reLead stmtOf trimBlanks
  rw [reSpace_eq, takeWhile_lead]
  split
  · exact ⟨[], by simp, by simp, fun _ => rfl⟩
  · rename_i h
    have h35 : 35#8 ∉ l.dropWhile asmBlank := by simpa using h
    rw [← takeWhile_lead, takeWhile_hash h35]
    obtain ⟨bl, h1, h2⟩ := rstrip_split asmBlank (l.dropWhile asmBlank)
    refine ⟨bl, h1, h2, fun h0 => ?_⟩
    rw [h0, List.nil_append] at h1
    rcases head_dropWhile asmBlank l with e | ⟨b, r, e, hb⟩
    · rw [e] at h1; exact h1.symm
    · rw [e] at h1
      have := h2 b (by rw [← h1]; simp)
      rw [hb] at this; cases this

theorem mem_clean {l : Line} {b : Byte} (h : b ∈ reComment (reLead l)) : b ∈ l := by
  unfold reComment reLead at h
  split at h
  · rw [List.mem_reverse] at h
    have h := (List.dropWhile_sublist _).subset h
    rw [List.mem_reverse] at h
    exact (List.dropWhile_sublist _).subset ((List.takeWhile_sublist _).subset h)
  · exact (List.dropWhile_sublist _).subset h

theorem mem_trim {l : Line} {b : Byte} (h : b ∈ trimBlanks l) : b ∈ l := by
  unfold trimBlanks at h
  rw [List.mem_reverse] at h
  have h := (List.dropWhile_sublist _).subset h
  rw [List.mem_reverse] at h
  exact (List.dropWhile_sublist _).subset h

theorem mem_stmtOf {l : Line} {b : Byte} (h : b ∈ stmtOf l) : b ∈ l ∧ b ≠ 35#8 := by
  have h := mem_trim h
  refine ⟨(List.takeWhile_sublist _).subset h, ?_⟩
  have := List.all_eq_true.1 (List.all_takeWhile (p := fun b : Byte => decide (b ≠ 35#8)) (l := l)) b h
  simpa using this

theorem trim_twice (l bl : Line) (hb : ∀ b ∈ bl, asmBlank b = true) : trimBlanks (trimBlanks l ++ bl) = trimBlanks l := by
  have key : ∀ s : Line, s.dropWhile asmBlank = s → s.reverse.dropWhile asmBlank = s.reverse → trimBlanks (s ++ bl) = s := by
    intro s h1 h2
    unfold trimBlanks
    have : (s ++ bl).dropWhile asmBlank = s ++ bl ∨ s = [] := by
      cases s with
      | nil => exact .inr rfl
      | cons a s =>
        left
        rw [List.dropWhile_cons] at h1
        split at h1
        · have := (List.dropWhile_sublist (p := asmBlank) (l := s)).length_le
          rw [h1] at this; simp only [List.length_cons] at this; omega
        · rename_i h; rw [List.cons_append, List.dropWhile_cons, if_neg h]
    rcases this with e | rfl
    · rw [e, List.reverse_append, dropWhile_blanks (by simpa using hb), h2, List.reverse_reverse]
    · rw [List.nil_append, ← List.append_nil bl, dropWhile_blanks hb]; rfl
  have idem : ∀ x : Line, (x.dropWhile asmBlank).dropWhile asmBlank = x.dropWhile asmBlank := by
    intro x
    rcases head_dropWhile asmBlank x with e | ⟨b, r, e, hb⟩
    · rw [e]; rfl
    · rw [e, List.dropWhile_cons, hb]; rfl
  apply key
  · unfold trimBlanks
    obtain ⟨b2, h1, h2⟩ := rstrip_split asmBlank (l.dropWhile asmBlank)
    generalize hx : ((l.dropWhile asmBlank).reverse.dropWhile asmBlank).reverse = x at h1 ⊢
    cases x with
    | nil => rfl
    | cons a x =>
      rcases head_dropWhile asmBlank l with e | ⟨b, r, e, hb⟩
      · rw [e] at h1; simp at h1
      · rw [e] at h1
        simp only [List.cons_append, List.cons.injEq] at h1
        rw [List.dropWhile_cons, ← h1.1, hb]; rfl
  · unfold trimBlanks
    rw [List.reverse_reverse, idem]

theorem stmt_twice (l bl : Line) (hb : ∀ b ∈ bl, asmBlank b = true) : stmtOf (stmtOf l ++ bl) = stmtOf l := by
  have h35 : 35#8 ∉ stmtOf l ++ bl := by
    intro h
    rcases List.mem_append.1 h with h | h
    · exact (mem_stmtOf h).2 rfl
    · exact absurd (hb _ h) (by decide)
  show trimBlanks _ = _
  rw [takeWhile_hash h35]
  exact trim_twice _ _ hb

theorem stmt_tab (l : Line) : stmtOf (9#8 :: l) = stmtOf l := by
  unfold stmtOf trimBlanks
  rw [List.takeWhile_cons, if_pos (by decide), List.dropWhile_cons, if_pos (by decide)]

/-- A word that ends in no blank is not found in blanks. -/
theorem infix_blank {q s bl : Line} {c : Byte} (hc : asmBlank c = false) (hb : ∀ b ∈ bl, asmBlank b = true)
    (h : (q ++ [c]) <:+: s ++ bl) : (q ++ [c]) <:+: s := by
  obtain ⟨x, y, h⟩ := h
  rcases List.append_eq_append_iff.1 h with ⟨a, h1, _⟩ | ⟨a, h1, h2⟩
  · exact ⟨x, a, h1.symm⟩
  · rcases List.eq_nil_or_concat a with rfl | ⟨a', d, rfl⟩
    · exact ⟨x, [], by rw [List.append_nil, h1, List.append_nil]⟩
    · exfalso
      have := congrArg List.getLast? h1
      simp only [List.concat_eq_append, List.getLast?_append, List.getLast?_singleton, Option.some_or, Option.some.injEq] at this
      have hd := hb d (by rw [h2]; simp)
      rw [← this, hc] at hd; cases hd

theorem reTwo_infix {t : Line} {a b : Byte} (ha : asmBlank a = false) (hb : asmBlank b = false) (h : [a, b] <:+: t) : reTwo t = true := by
  obtain ⟨x, y, rfl⟩ := h
  induction x with
  | nil =>
    show reTwo (a :: b :: y) = true
    rw [reTwo, reSpace_eq, ha, hb]; rfl
  | cons c x ih =>
    cases hx : x ++ [a, b] ++ y with
    | nil => simp at hx
    | cons d r =>
      rw [List.cons_append, List.cons_append, hx, reTwo]
      rw [hx] at ih
      rw [ih, Bool.or_true]

theorem reGlobal_infix {t n : Line} (h : reGlobal t = some n) : reGlobalWord <:+: t := by
  induction t with
  | nil => cases h
  | cons b r ih =>
    rw [reGlobal] at h
    split at h
    · rename_i hb
      obtain ⟨y, hy⟩ := List.isPrefixOf_iff_prefix.1 hb
      exact ⟨[b], y, by rw [← hy]; rfl⟩
    · obtain ⟨x, y, e⟩ := ih h
      exact ⟨b :: x, y, by rw [← e]; rfl⟩

theorem takeWhile_name {n bl : Line} (hn : ∀ b ∈ n, asmBlank b = false) (hb : ∀ b ∈ bl, asmBlank b = true) :
    (n ++ bl).takeWhile (fun b => !asmBlank b) = n := by
  induction n with
  | nil =>
    cases bl with
    | nil => rfl
    | cons b bl => rw [List.nil_append, List.takeWhile_cons, hb b (by simp)]; rfl
  | cons a n ih =>
    rw [List.cons_append, List.takeWhile_cons, hn a (by simp)]
    simp only [Bool.not_false, if_true]
    rw [ih (fun b h => hn b (by simp [h]))]

theorem reGlobal_export {n bl : Line} (hn : ∀ b ∈ n, asmBlank b = false) (hb : ∀ b ∈ bl, asmBlank b = true) :
    reGlobal (globalWord ++ n ++ bl) = some n := by
  show reGlobal (46#8 :: (reGlobalWord ++ (n ++ bl))) = _
  rw [reGlobal, if_pos (by unfold begins; exact List.isPrefixOf_iff_prefix.2 ⟨_, rfl⟩), show (reGlobalWord ++ (n ++ bl)).drop 7 = n ++ bl from rfl, reSpace_eq,
    takeWhile_name hn hb]

theorem reColonAt_prefix {t c : Line} (h : reColonAt t = some c) : (c ++ [58#8]) <+: t := by
  induction t generalizing c with
  | nil => cases h
  | cons b r ih =>
    rw [reColonAt] at h
    split at h
    · cases h
    · split at h
      · rename_i d hd
        cases h
        obtain ⟨y, e⟩ := ih hd
        exact ⟨y, by rw [← e]; rfl⟩
      · split at h
        · rename_i hb
          cases h
          exact ⟨r, by rw [hb]; rfl⟩
        · cases h

theorem reColon_infix {t c : Line} (h : reColon t = some c) : (c ++ [58#8]) <:+: t := by
  induction t with
  | nil => cases h
  | cons b r ih =>
    rw [reColon] at h
    split at h
    · rename_i d hd
      cases h
      exact (reColonAt_prefix hd).isInfix
    · obtain ⟨x, y, e⟩ := ih h
      exact ⟨b :: x, y, by rw [← e]; rfl⟩

theorem reColonAt_blank {bl : Line} (hb : ∀ b ∈ bl, asmBlank b = true) : reColonAt bl = none := by
  cases bl with
  | nil => rfl
  | cons b bl => rw [reColonAt, reSpace_eq, if_pos (hb b (by simp))]

theorem reColon_label {n bl : Line} (hn : ∀ b ∈ n, asmBlank b = false) (hb : ∀ b ∈ bl, asmBlank b = true) :
    reColon (n ++ [58#8] ++ bl) = some n := by
  have key : reColonAt (n ++ [58#8] ++ bl) = some n := by
    induction n with
    | nil =>
      show reColonAt (58#8 :: bl) = _
      rw [reColonAt, if_neg (by decide), reColonAt_blank hb]; rfl
    | cons a n ih =>
      rw [List.cons_append, List.cons_append, reColonAt, reSpace_eq, hn a (by simp), ih (fun b h => hn b (by simp [h]))]
      rfl
  cases ht : n ++ [58#8] ++ bl with
  | nil => simp at ht
  | cons b r => rw [ht] at key; rw [reColon, key]

theorem inside_plain {t : Line} (h1 : 34#8 ∉ t) (h2 : 92#8 ∉ t) (h3 : 10#8 ∉ t) (r : List Byte) :
    cStrings .inside (t ++ r) = (cStrings .inside r).map (fun x => (t ++ x.1, x.2)) := by
  induction t with
  | nil => cases h : cStrings .inside r <;> simp [h]
  | cons b t ih =>
    simp only [List.mem_cons, not_or] at h1 h2 h3
    rw [List.cons_append, cStrings, if_neg (fun e => h1.1 e.symm), if_neg (fun e => h2.1 e.symm), if_neg (fun e => h3.1 e.symm),
      ih h1.2 h2.2 h3.2, Option.map_map]
    rfl

theorem between_string {t : Line} (h1 : 34#8 ∉ t) (h2 : 92#8 ∉ t) (h3 : 10#8 ∉ t) (r : List Byte) :
    cStrings .between (caString t ++ r) = (cStrings .between r).map (fun x => (t ++ [10#8, 9#8] ++ x.1, x.2)) := by
  have e : caString t ++ r = [9#8, 9#8, 34#8] ++ (t ++ ([92#8, 110#8, 92#8, 116#8, 34#8, 10#8] ++ r)) := by simp [caString]
  have e1 : ∀ u, cStrings .between ([9#8, 9#8, 34#8] ++ u) = cStrings .inside u := fun u => by simp [cStrings, asmBlank]
  have e2 : cStrings .inside ([92#8, 110#8, 92#8, 116#8, 34#8, 10#8] ++ r) = (cStrings .between r).map (fun x => (10#8 :: 9#8 :: x.1, x.2)) := by
    simp only [List.cons_append, List.nil_append]
    rw [cStrings, if_neg (by decide), if_pos rfl, cStrings, if_pos rfl, cStrings, if_neg (by decide), if_pos rfl, cStrings,
      if_neg (by decide), if_pos rfl, cStrings, if_pos rfl, cStrings, if_pos (by decide), Option.map_map]
    rfl
  rw [e, e1, inside_plain h1 h2 h3, e2, Option.map_map]
  congr 1
  funext x
  simp

theorem splitLines_line {t : Line} (h : 10#8 ∉ t) (r : List Byte) : splitLines (t ++ 10#8 :: r) = t :: splitLines r := by
  induction t with
  | nil => rw [List.nil_append, splitLines, if_pos rfl]
  | cons b t ih =>
    simp only [List.mem_cons, not_or] at h
    rw [List.cons_append, splitLines, if_neg (fun e => h.1 e.symm), ih h.2]

theorem program_cons (l : Line) (ls : List Line) : program (l :: ls) = if stmtOf l = [] then program ls else stmtOf l :: program ls := by
  unfold program
  rw [List.map_cons, List.filter_cons]
  by_cases h : stmtOf l = [] <;> simp [h]

/-- A line as the script keeps it. -/
def Kept (t : Line) : Prop := 34#8 ∉ t ∧ 92#8 ∉ t ∧ 10#8 ∉ t ∧ stmtOf t ≠ []

theorem decode_kept {ts : List Line} (h : ∀ t ∈ ts, Kept t) (r : List Byte) :
    cStrings .between (ts.flatMap caString ++ r) =
      (cStrings .between r).map (fun x => (ts.flatMap (· ++ [10#8, 9#8]) ++ x.1, x.2)) := by
  induction ts with
  | nil => cases h : cStrings .between r <;> simp [h]
  | cons t ts ih =>
    obtain ⟨h1, h2, h3, _⟩ := h t (by simp)
    rw [List.flatMap_cons, List.append_assoc, between_string h1 h2 h3, ih (fun u hu => h u (by simp [hu])), Option.map_map]
    congr 1
    funext x
    simp

theorem program_kept {ts : List Line} (h : ∀ t ∈ ts, Kept t) (u : Line) (hu : u = [] ∨ u = [9#8]) :
    program (splitLines (u ++ ts.flatMap (· ++ [10#8, 9#8]))) = ts.map stmtOf := by
  induction ts generalizing u with
  | nil => rcases hu with rfl | rfl <;> decide +kernel
  | cons t ts ih =>
    obtain ⟨_, _, h3, h4⟩ := h t (by simp)
    have e : u ++ (t :: ts).flatMap (· ++ [10#8, 9#8]) = (u ++ t) ++ 10#8 :: ([9#8] ++ ts.flatMap (· ++ [10#8, 9#8])) := by simp
    have hs : stmtOf (u ++ t) = stmtOf t := by
      rcases hu with rfl | rfl
      · rfl
      · exact stmt_tab t
    rw [e, splitLines_line, program_cons, hs, if_neg h4, ih (fun v hv => h v (by simp [hv])) _ (.inr rfl), List.map_cons]
    rcases hu with rfl | rfl <;> simp [h3]

/-- The head of the function for an exported name. -/
def voidOf (n : Line) : List Byte := caVoid ++ n ++ caOpen

theorem caFold {ls : List Line} {names : List Line} (st : CaState)
    (hnl : ∀ l ∈ ls, 10#8 ∉ l)
    (hc : ∀ s ∈ program ls, exportOf s = none → Carried names s)
    (hn : ∀ n ∈ names, n ≠ [] ∧ ∀ b ∈ n, asmBlank b = false)
    (hsy : ∀ n ∈ st.syms, n ∈ names) (hex : ∀ n ∈ exportsOf (program ls), n ∈ names) :
    ∃ ts : List Line, (ls.foldl caLine st).back = st.back ++ ts.flatMap caString ∧ ts.map stmtOf = bodyOf st.syms (program ls) ∧ (∀ t ∈ ts, Kept t) ∧ (∀ t ∈ ts, ∃ l ∈ ls, ∀ b ∈ t, b ∈ l) ∧
      (ls.foldl caLine st).front = (exportsOf (program ls)).reverse.flatMap voidOf ++ st.front ∧
      (ls.foldl caLine st).close = if exportsOf (program ls) = [] then st.close else caClose := by
  induction ls generalizing st with
  | nil => exact ⟨[], by simp, rfl, by simp, by simp, by simp [program, exportsOf], by simp [program, exportsOf]⟩
  | cons l ls ih =>
    rw [List.foldl_cons]
    obtain ⟨bl, hcl, hbl, hnil⟩ := clean_split l
    have hl := hnl l (by simp)
    have hls : ∀ l ∈ ls, 10#8 ∉ l := fun x hx => hnl x (by simp [hx])
    rw [program_cons] at hc hex ⊢
    by_cases h0 : stmtOf l = []
    · rw [if_pos h0] at hc hex ⊢
      have : caLine st l = st := by
        unfold caLine
        rw [hcl, h0, hnil h0]; rfl
      rw [this]
      obtain ⟨ts, h1, h2, h3, h6, h4⟩ := ih st hls hc hsy hex
      exact ⟨ts, h1, h2, h3, fun t ht => (h6 t ht).imp fun l h => ⟨by simp [h.1], h.2⟩, h4⟩
    · rw [if_neg h0] at hc hex ⊢
      have hc' : ∀ s ∈ program ls, exportOf s = none → Carried names s := fun s hs => hc s (by simp [hs])
      cases hE : exportOf (stmtOf l) with
      | some n =>
        have hE' := hE
        unfold exportOf at hE'
        split at hE'
        rotate_left
        · cases hE'
        rename_i hp
        obtain ⟨y, hy⟩ := List.isPrefixOf_iff_prefix.1 hp
        have hyn : y = n := by
          rw [← hy] at hE'
          simpa [globalWord] using hE'
        subst hyn
        have hex' : exportsOf (stmtOf l :: program ls) = y :: exportsOf (program ls) := by
          unfold exportsOf; rw [List.filterMap_cons, hE]
        rw [hex'] at hex ⊢
        obtain ⟨hy0, hyb⟩ := hn y (hex y (by simp))
        have hG : reGlobal (stmtOf l ++ bl) = some y := by rw [← hy]; exact reGlobal_export hyb hbl
        have hT : reTwo (stmtOf l ++ bl) = true := by
          rw [← hy]
          exact reTwo_infix (a := 46#8) (b := 103#8) (by decide) (by decide) ⟨[], [108#8, 111#8, 98#8, 97#8, 108#8, 32#8] ++ y ++ bl, by simp [globalWord]⟩
        have hst : caLine st l = { st with front := voidOf y ++ st.front, close := caClose, syms := y :: st.syms } := by
          unfold caLine
          simp only
          rw [hcl, hT, hG]
          rfl
        rw [hst]
        obtain ⟨ts, h1, h2, h3, h6, h4, h5⟩ := ih { st with front := voidOf y ++ st.front, close := caClose, syms := y :: st.syms } hls hc'
          (fun n h => by
            rcases List.mem_cons.1 h with rfl | h
            · exact hex n (by simp)
            · exact hsy n h) (fun n h => hex n (by simp [h]))
        refine ⟨ts, h1, ?_, h3, fun t ht => (h6 t ht).imp fun l h => ⟨by simp [h.1], h.2⟩, ?_, ?_⟩
        · rw [h2, bodyOf, hE]
        · rw [h4]; simp
        · rw [h5]; simp
      | none =>
        have hex' : exportsOf (stmtOf l :: program ls) = exportsOf (program ls) := by
          unfold exportsOf; rw [List.filterMap_cons, hE]
        rw [hex'] at hex ⊢
        have hC := hc (stmtOf l) (by simp) hE
        have hT : reTwo (stmtOf l ++ bl) = true := by
          obtain ⟨a, b, ha, hb, x, y, e⟩ := hC.two
          exact reTwo_infix ha hb ⟨x, y ++ bl, by rw [← e]; simp⟩
        have hG : reGlobal (stmtOf l ++ bl) = none := by
          cases h : reGlobal (stmtOf l ++ bl) with
          | none => rfl
          | some n =>
            exfalso
            obtain ⟨x, y, e⟩ := reGlobal_infix h
            refine hC.word (infix_blank (q := [103#8, 108#8, 111#8, 98#8, 97#8]) (by decide) hbl ⟨x, 32#8 :: y, ?_⟩)
            rw [← e]; simp [reGlobalWord]
        rw [bodyOf, hE]
        simp only
        by_cases hA : st.syms.any (fun n => stmtOf l = n ++ [58#8]) = true
        · rw [if_pos hA]
          obtain ⟨n, hn1, hn2⟩ := List.any_eq_true.1 hA
          have hn2 : stmtOf l = n ++ [58#8] := by simpa using hn2
          have hR : reColon (stmtOf l ++ bl) = some n := by rw [hn2]; exact reColon_label (hn n (hsy n hn1)).2 hbl
          have hst : caLine st l = st := by
            unfold caLine
            simp only
            rw [hcl, hT, hG]
            simp only [hR]
            rw [if_neg (by decide), if_pos (by simpa using hn1)]
          rw [hst]
          obtain ⟨ts, h1, h2, h3, h6, h4⟩ := ih st hls hc' hsy hex
          exact ⟨ts, h1, h2, h3, fun t ht => (h6 t ht).imp fun l h => ⟨by simp [h.1], h.2⟩, h4⟩
        · rw [if_neg hA]
          have hR : (match reColon (stmtOf l ++ bl) with | some c => st.syms.contains c | none => false) = false := by
            cases h : reColon (stmtOf l ++ bl) with
            | none => rfl
            | some c =>
              simp only
              cases hm : st.syms.contains c with
              | false => rfl
              | true =>
                exfalso
                have hm : c ∈ st.syms := by simpa using hm
                have hi := infix_blank (by decide) hbl (reColon_infix h)
                have hne : stmtOf l = c ++ [58#8] := by
                  by_cases e : stmtOf l = c ++ [58#8]
                  · exact e
                  · exact absurd hi (hC.label c (hsy c hm) e)
                exact hA (List.any_eq_true.2 ⟨c, hm, by simpa using hne⟩)
          have h35 : begins [35#8] (stmtOf l ++ bl) = false := by
            cases h : begins [35#8] (stmtOf l ++ bl) with
            | false => rfl
            | true =>
              exfalso
              obtain ⟨y, hy⟩ := List.isPrefixOf_iff_prefix.1 h
              have : 35#8 ∈ stmtOf l ++ bl := by rw [← hy]; simp
              rcases List.mem_append.1 this with h | h
              · exact (mem_stmtOf h).2 rfl
              · exact absurd (hbl _ h) (by decide)
          have hst : caLine st l = { st with back := st.back ++ caString (stmtOf l ++ bl) } := by
            unfold caLine
            simp only
            rw [hcl, hT, hG]
            simp only
            rw [if_neg (by decide)]
            refine (if_neg (fun h => Bool.false_ne_true (hR.symm.trans h))).trans ?_
            rw [h35, if_neg (by decide)]
          rw [hst]
          obtain ⟨ts, h1, h2, h3, h6, h4, h5⟩ := ih { st with back := st.back ++ caString (stmtOf l ++ bl) } hls hc' hsy hex
          refine ⟨(stmtOf l ++ bl) :: ts, ?_, ?_, ?_, ?_, h4, h5⟩
          · rw [h1]; simp
          · rw [List.map_cons, h2, stmt_twice _ _ hbl]
          · intro t ht
            rcases List.mem_cons.1 ht with rfl | ht
            · have hsub : ∀ b ∈ stmtOf l ++ bl, b ∈ stmtOf l ∨ asmBlank b = true := fun b h =>
                (List.mem_append.1 h).imp id (hbl b)
              refine ⟨fun h => ?_, fun h => ?_, fun h => ?_, by rw [stmt_twice _ _ hbl]; exact h0⟩
              · rcases hsub _ h with h | h
                · exact hC.quote h
                · exact absurd h (by decide)
              · rcases hsub _ h with h | h
                · exact hC.slash h
                · exact absurd h (by decide)
              · exact hl (mem_clean (by rw [hcl]; exact h))
            · exact h3 t ht
          · intro t ht
            rcases List.mem_cons.1 ht with rfl | ht
            · exact ⟨l, by simp, fun b h => mem_clean (by rw [hcl]; exact h)⟩
            · exact (h6 t ht).imp fun l h => ⟨by simp [h.1], h.2⟩

/-- What the script writes for a program it can carry over. -/
theorem convertAsm_shape {ls : List Line} (hnl : ∀ l ∈ ls, 10#8 ∉ l) (hok : AsmOk (program ls)) :
    ∃ ts : List Line, ts.map stmtOf = bodyOf [] (program ls) ∧ (∀ t ∈ ts, Kept t) ∧ (∀ t ∈ ts, ∃ l ∈ ls, ∀ b ∈ t, b ∈ l) ∧
      convertAsm ls = (exportsOf (program ls)).reverse.flatMap fnHead ++ (txt "#ifdef mini_start\n__asm__ volatile (" ++ (10#8 :: ts.flatMap caString ++
        (9#8 :: 41#8 :: (txt ";\n" ++ (if exportsOf (program ls) = [] then [] else txt "};\n") ++ txt "#endif\n\n")))) := by
  obtain ⟨ts, h1, h2, h3, h6, h4, h5⟩ := caFold (ls := ls) (names := exportsOf (program ls)) ⟨[], [], [], []⟩ hnl hok.1 hok.2 (by simp) (fun _ h => h)
  refine ⟨ts, h2, h3, h6, ?_⟩
  unfold convertAsm
  simp only
  rw [h1, h4, h5, show caHead = txt "#ifdef mini_start\n__asm__ volatile (" ++ [10#8] by decide +kernel,
    show caEnd = [9#8, 41#8] ++ txt ";\n" by decide +kernel, show caClose = txt "};\n" by decide +kernel,
    show txt "#endif\n\n" = caEndif ++ [10#8] by decide +kernel,
    show voidOf = fnHead by
      funext n
      unfold voidOf fnHead
      rw [show caVoid = txt "void " by decide +kernel, show caOpen = txt "(){\n" by decide +kernel]]
  simp

/-- C115: the C file has a function for every exported name, and the compiler hands to the assembler the statements of the source, in order. -/
theorem C115_code_partial {ls : List Line} (hnl : ∀ l ∈ ls, 10#8 ∉ l) (hok : AsmOk (program ls)) :
    ∃ body text after, convertAsm ls = (exportsOf (program ls)).reverse.flatMap fnHead ++ (txt "#ifdef mini_start\n__asm__ volatile (" ++ body) ∧
      cStrings .between body = some (text, after) ∧ program (splitLines text) = bodyOf [] (program ls) ∧
      after = txt ";\n" ++ (if exportsOf (program ls) = [] then [] else txt "};\n") ++ txt "#endif\n\n" := by
  obtain ⟨ts, h1, h2, -, h3⟩ := convertAsm_shape hnl hok
  refine ⟨_, ts.flatMap (· ++ [10#8, 9#8]), _, h3, ?_, ?_, rfl⟩
  · rw [List.cons_append, cStrings, if_pos (by decide), decode_kept h2, cStrings, if_pos (by decide), cStrings, if_neg (by decide), if_neg (by decide), if_pos rfl]
    simp
  · rw [← h1]
    exact program_kept h2 [] (.inl rfl)

theorem count_flatMap_zero {α : Type} (c : Byte) (f : α → List Byte) (l : List α) (h : ∀ x ∈ l, c ∉ f x) : (l.flatMap f).count c = 0 := by
  rw [List.count_eq_zero]
  intro hm
  obtain ⟨x, hx, hc⟩ := List.mem_flatMap.1 hm
  exact h x hx hc

theorem mem_export {ls : List Line} {n : Line} (h : n ∈ exportsOf (program ls)) : ∃ l ∈ ls, ∀ b ∈ n, b ∈ l := by
  obtain ⟨s, hs, he⟩ := List.mem_filterMap.1 h
  obtain ⟨l, hl, rfl⟩ := List.mem_map.1 (List.mem_filter.1 hs).1
  refine ⟨l, hl, fun b hb => ?_⟩
  unfold exportOf at he
  split at he
  · cases he
    exact (mem_stmtOf ((List.drop_sublist _ _).subset hb)).1
  · cases he

/-- C115: with at most one exported name, and no braces in the source, the braces of the C file match. -/
theorem C115_braces_partial {ls : List Line} (hnl : ∀ l ∈ ls, 10#8 ∉ l) (hok : AsmOk (program ls))
    (hone : (exportsOf (program ls)).length ≤ 1) (hb : ∀ l ∈ ls, 123#8 ∉ l ∧ 125#8 ∉ l) : Braced (convertAsm ls) := by
  obtain ⟨ts, -, -, h2, h3⟩ := convertAsm_shape hnl hok
  have hts : ∀ c, (c = 123#8 ∨ c = 125#8) → (ts.flatMap caString).count c = 0 := by
    intro c hc
    refine count_flatMap_zero c _ _ fun t ht hm => ?_
    obtain ⟨l, hl, hs⟩ := h2 t ht
    unfold caString at hm
    rcases hc with rfl | rfl
    · simp at hm; exact (hb l hl).1 (hs _ hm)
    · simp at hm; exact (hb l hl).2 (hs _ hm)
  unfold Braced
  rw [h3]
  cases hE : exportsOf (program ls) with
  | nil =>
    simp only [List.count_append, List.count_cons, hts _ (.inl rfl), hts _ (.inr rfl)]
    decide +kernel
  | cons n r =>
    rw [hE] at hone
    cases r with
    | cons _ _ => simp at hone
    | nil =>
      obtain ⟨l, hl, hs⟩ := mem_export (n := n) (by rw [hE]; simp)
      have n1 : n.count 123#8 = 0 := List.count_eq_zero.2 fun h => (hb l hl).1 (hs _ h)
      have n2 : n.count 125#8 = 0 := List.count_eq_zero.2 fun h => (hb l hl).2 (hs _ h)
      simp only [List.count_append, List.count_cons, hts _ (.inl rfl), hts _ (.inr rfl), List.reverse_singleton, List.flatMap_cons, List.flatMap_nil,
        fnHead, n1, n2, if_neg (show ¬ [n] = [] by simp)]
      decide +kernel

/-- C115 as a whole. -/
def C115_full : Prop := ∀ ls : List Line, (∀ l ∈ ls, 10#8 ∉ l) →
  (∃ body text after, convertAsm ls = (exportsOf (program ls)).reverse.flatMap fnHead ++ (txt "#ifdef mini_start\n__asm__ volatile (" ++ body) ∧
    cStrings .between body = some (text, after) ∧ program (splitLines text) = bodyOf [] (program ls)) ∧
  ((∀ l ∈ ls, 123#8 ∉ l ∧ 125#8 ∉ l) → Braced (convertAsm ls))

/-- asm/start-linux-x64.S, the lines with statements. -/
def startX64 : List Line := [txt ".global _start", txt "_start:", txt "", txt "\tpopq %rdi #; argc", txt "\tmovq %rsp,%rsi #; argv", txt "\t#pushq %rdi #;",
  txt "  leaq  8(%rsi,%rdi,8),%rdx #; %ebx = envp = (4*eax)+%esp+8", txt "\tcall main", txt "", txt "\tmovq %rax, %rdi", txt ".global _exit", txt "_exit:",
  txt "\tmovq $60, %rax", txt "\tsyscall"]

/-- C115 fails: two exported names, as in the start code of the library, give two functions and one closing brace. -/
theorem C115_refuted : ¬ C115_full := by
  intro h
  have := (h startX64 (by decide +kernel)).2 (by decide +kernel)
  exact absurd this (by unfold Braced; decide +kernel)

/-- C115 fails: conditions (`#ifdef`) are taken for comments, their lines are there without the condition. -/
theorem C115_cond_refuted (a b : List Line) (r : Line) : convertAsm (a ++ (35#8 :: r) :: b) = convertAsm (a ++ b) := by
  unfold convertAsm
  rw [List.foldl_append, List.foldl_cons, List.foldl_append]
  have : ∀ st, caLine st (35#8 :: r) = st := by
    intro st
    have : reComment (reLead (35#8 :: r)) = [] := by
      unfold reLead reComment
      rw [List.dropWhile_cons, show reSpace 35#8 = false by decide]
      simp
    unfold caLine
    simp only [this]
    rfl
  rw [this]

/-- C115 fails: an instruction on the line of an exported label (as in asm/start-osx.S) is lost. -/
theorem C115_label_refuted {n r : Line} (hn : ∀ b ∈ n, asmBlank b = false) (h0 : n ≠ []) (h35 : 35#8 ∉ n)
    (hr : 35#8 ∉ r) (hw : reGlobal (n ++ 58#8 :: 32#8 :: r) = none) :
    convertAsm [globalWord ++ n, n ++ 58#8 :: 32#8 :: r] = convertAsm [globalWord ++ n] := by
  have hx : reComment (reLead (globalWord ++ n)) = globalWord ++ n := by
    unfold reLead reComment
    rw [show globalWord ++ n = 46#8 :: (globalWord.drop 1 ++ n) from rfl, List.dropWhile_cons, show reSpace 46#8 = false by decide]
    simp [globalWord, h35]
  have hs : (caLine ⟨[], [], [], []⟩ (globalWord ++ n)).syms = [n] := by
    unfold caLine
    simp only
    rw [hx, reTwo_infix (a := 46#8) (b := 103#8) (by decide) (by decide) ⟨[], [108#8, 111#8, 98#8, 97#8, 108#8, 32#8] ++ n, by simp [globalWord]⟩]
    have := reGlobal_export (bl := []) hn (by simp)
    rw [List.append_nil] at this
    rw [this]
    rfl
  have key : ∀ st : CaState, st.syms = [n] → caLine st (n ++ 58#8 :: 32#8 :: r) = st := by
    intro st hst
    cases n with
    | nil => exact absurd rfl h0
    | cons c n =>
      have hl : reComment (reLead (c :: n ++ 58#8 :: 32#8 :: r)) = c :: n ++ 58#8 :: 32#8 :: r := by
        unfold reLead reComment
        rw [List.cons_append, List.dropWhile_cons, reSpace_eq, hn c (by simp)]
        simp only [List.mem_cons, not_or] at h35
        simp [h35.1, h35.2, hr]
      have hc : reColon (c :: n ++ 58#8 :: 32#8 :: r) = some (c :: n) := by
        have : ∀ k : Line, (∀ b ∈ k, asmBlank b = false) → reColonAt (k ++ 58#8 :: 32#8 :: r) = some k := by
          intro k hk
          induction k with
          | nil =>
            show reColonAt (58#8 :: 32#8 :: r) = _
            rw [reColonAt, if_neg (by decide), reColonAt, if_pos (by decide)]; rfl
          | cons a k ih =>
            rw [List.cons_append, reColonAt, reSpace_eq, hk a (by simp), ih (fun b h => hk b (by simp [h]))]
            rfl
        have := this (c :: n) hn
        rw [List.cons_append] at this ⊢
        rw [reColon, this]
      unfold caLine
      simp only [hl]
      split
      · rfl
      · rw [hw]
        simp only [hc]
        rw [if_pos (by simp [hst])]
  unfold convertAsm
  rw [List.foldl_cons, List.foldl_cons, key _ hs]
  rfl

/-- C115 fails: a quote ends the C string. -/
theorem C115_quote_refuted : ∃ ls : List Line, (∀ l ∈ ls, 10#8 ∉ l) ∧ ∃ body, convertAsm ls = txt "#ifdef mini_start\n__asm__ volatile (" ++ body ∧
    cStrings .between body = none :=
  ⟨[txt "hi: .string \"hi\""], by decide +kernel, (convertAsm [txt "hi: .string \"hi\""]).drop 36, by decide +kernel, by decide +kernel⟩

/-- A small program. -/
def exitAsm : List Line := [txt ".global _exit", txt "_exit:", txt "\tmovq $60, %rax  # number", txt "  syscall ", txt "1: jmp 1b"]

theorem exitAsm_ok : AsmOk (program exitAsm) := by
  have hp : program exitAsm = [txt ".global _exit", txt "_exit:", txt "movq $60, %rax", txt "syscall", txt "1: jmp 1b"] := by decide +kernel
  have he : exportsOf (program exitAsm) = [txt "_exit"] := by decide +kernel
  constructor
  · intro s hs hx
    rw [he]
    rw [hp] at hs
    simp only [List.mem_cons, List.not_mem_nil, or_false] at hs
    rcases hs with rfl | rfl | rfl | rfl | rfl
    · exact absurd hx (by decide +kernel)
    · exact ⟨by decide +kernel, by decide +kernel, ⟨95#8, 101#8, by decide, by decide, [], txt "xit:", by decide +kernel⟩, by decide +kernel, by decide +kernel⟩
    · exact ⟨by decide +kernel, by decide +kernel, ⟨109#8, 111#8, by decide, by decide, [], txt "vq $60, %rax", by decide +kernel⟩, by decide +kernel, by decide +kernel⟩
    · exact ⟨by decide +kernel, by decide +kernel, ⟨115#8, 121#8, by decide, by decide, [], txt "scall", by decide +kernel⟩, by decide +kernel, by decide +kernel⟩
    · exact ⟨by decide +kernel, by decide +kernel, ⟨49#8, 58#8, by decide, by decide, [], txt " jmp 1b", by decide +kernel⟩, by decide +kernel, by decide +kernel⟩
  · rw [he]; decide +kernel

/-- C115: the assembler gets the two instructions and the loop. -/
example : ∃ body text after, convertAsm exitAsm = txt "void _exit(){\n" ++ (txt "#ifdef mini_start\n__asm__ volatile (" ++ body) ∧
    cStrings .between body = some (text, after) ∧ program (splitLines text) = [txt "movq $60, %rax", txt "syscall", txt "1: jmp 1b"] := by
  obtain ⟨body, text, after, h1, h2, h3, _⟩ := C115_code_partial (ls := exitAsm) (by decide +kernel) exitAsm_ok
  refine ⟨body, text, after, ?_, h2, ?_⟩
  · rw [h1]; congr 1
  · rw [h3]; decide +kernel

/-- C115: its braces match. -/
example : Braced (convertAsm exitAsm) := C115_braces_partial (by decide +kernel) exitAsm_ok (by decide +kernel) (by decide +kernel)

/-- C115: "start: pushq $0". -/
example : convertAsm [txt ".global start", txt "start: pushq $0"] = convertAsm [txt ".global start"] :=
  C115_label_refuted (n := txt "start") (r := txt "pushq $0") (by decide +kernel) (by decide +kernel) (by decide +kernel) (by decide +kernel) (by decide +kernel)

/-- C115: a condition. -/
example : convertAsm [txt "#ifdef mini_vsyscalls", txt "push %ebx", txt "#endif"] = convertAsm [txt "push %ebx"] := by
  have h1 := C115_cond_refuted [] [txt "push %ebx", txt "#endif"] (txt "ifdef mini_vsyscalls")
  have h2 := C115_cond_refuted [txt "push %ebx"] [] (txt "endif")
  exact h1.trans h2

end Minilib

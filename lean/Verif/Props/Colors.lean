import Verif.Model.Colors
/-
Property C104: the colour macros on a terminal.
-/

set_option autoImplicit false

/-! ### The terminal: ECMA-48, SGR (8.3.117), with the extended colours of T.416 -/

namespace Spec

/-- How characters look.  `none` is the default colour of the terminal; the weight is 0 for normal, 1 for bold,
2 for faint. -/
structure Attr where
  fg : Option Nat := none
  bg : Option Nat := none
  weight : Nat := 0
  italic : Bool := false
  underline : Bool := false
  slowBlink : Bool := false
  fastBlink : Bool := false
  negative : Bool := false
  conceal : Bool := false
  deriving DecidableEq

/-- One parameter of SGR. -/
def sgr1 (a : Attr) (p : Nat) : Attr :=
  if p = 0 then {}
  else if p = 1 then { a with weight := 1 }
  else if p = 2 then { a with weight := 2 }
  else if p = 3 then { a with italic := true }
  else if p = 4 then { a with underline := true }
  else if p = 5 then { a with slowBlink := true }
  else if p = 6 then { a with fastBlink := true }
  else if p = 7 then { a with negative := true }
  else if p = 8 then { a with conceal := true }
  else if 30 ≤ p ∧ p ≤ 37 then { a with fg := some (p - 30) }
  else if p = 39 then { a with fg := none }
  else if 40 ≤ p ∧ p ≤ 47 then { a with bg := some (p - 40) }
  else if p = 49 then { a with bg := none }
  else a

/-- The parameters of SGR, left to right.  38 and 48 take the following parameters as a colour; if there is no
colour, nothing changes and the parameter behind is skipped (as the Linux console does). -/
def sgr : Attr → List Nat → Attr
  | a, [] => a
  | a, 38 :: 5 :: n :: l => sgr { a with fg := some n } l
  | a, 48 :: 5 :: n :: l => sgr { a with bg := some n } l
  | a, 38 :: 2 :: r :: g :: b :: l => sgr { a with fg := some (256 + r * 65536 + g * 256 + b) } l
  | a, 48 :: 2 :: r :: g :: b :: l => sgr { a with bg := some (256 + r * 65536 + g * 256 + b) } l
  | a, 38 :: _ :: l => sgr a l
  | a, 48 :: _ :: l => sgr a l
  | a, p :: l => sgr (sgr1 a p) l

/-- Where the terminal is in an escape sequence: in the text, behind ESC, or behind ESC [ with parameters read. -/
inductive Scan
  | text
  | esc
  | csi (done : List Nat) (cur : Nat)

/-- A terminal: the state of its scanner, the attributes, and the characters shown, each as it looks. -/
structure Term where
  scan : Scan
  attr : Attr
  shown : List (Byte × Attr)

/-- The terminal gets a byte.  Sequences other than SGR are ignored. -/
def Term.put (t : Term) (b : Byte) : Term :=
  match t.scan with
  | .text => if b = 27#8 then { t with scan := .esc } else { t with shown := t.shown ++ [(b, t.attr)] }
  | .esc => if b = 91#8 then { t with scan := .csi [] 0 } else { t with scan := .text }
  | .csi done cur =>
    if 48 ≤ b.toNat ∧ b.toNat ≤ 57 then { t with scan := .csi done (cur * 10 + (b.toNat - 48)) }
    else if b = 59#8 then { t with scan := .csi (done ++ [cur]) 0 }
    else if b = 109#8 then { t with scan := .text, attr := sgr t.attr (done ++ [cur]) }
    else { t with scan := .text }

/-- The terminal gets bytes. -/
def Term.puts (t : Term) (l : List Byte) : Term := l.foldl Term.put t

/-- What a name promises. -/
inductive Promise
  | norm
  | fg (color : Nat) (weight : Nat)
  | bg (color : Nat)
  | style (f : Attr → Attr)

/-- A promise, about the attributes before and afterwards: the normal look; text in a colour; a background, nothing
else changed; a style, nothing else changed. -/
def Promise.Holds : Promise → Attr → Attr → Prop
  | .norm, _, a' => a' = {}
  | .fg c w, _, a' => a'.fg = some c ∧ a'.weight = w
  | .bg c, a, a' => a' = { a with bg := some c }
  | .style f, a, a' => a' = f a

/-- The promises of the names: ISO 6429 numbers the colours black, red, green, yellow (brown when not bold), blue,
magenta, cyan, white (light grey when not bold); L is for light. -/
def promises : List (String × Promise) :=
  [("AC_NORM", .norm), ("AC_BLACK", .fg 0 0), ("AC_RED", .fg 1 0), ("AC_GREEN", .fg 2 0), ("AC_BROWN", .fg 3 0),
   ("AC_BLUE", .fg 4 0), ("AC_MAGENTA", .fg 5 0), ("AC_MARINE", .fg 6 0), ("AC_CYAN", .fg 6 0), ("AC_LGREY", .fg 7 0),
   ("AC_WHITE", .fg 7 0),
   ("AC_GREY", .fg 0 1), ("AC_LRED", .fg 1 1), ("AC_LGREEN", .fg 2 1), ("AC_YELLOW", .fg 3 1), ("AC_LBLUE", .fg 4 1),
   ("AC_LMAGENTA", .fg 5 1), ("AC_LMARINE", .fg 6 1), ("AC_LCYAN", .fg 6 1), ("AC_LWHITE", .fg 7 1),
   ("AC_BGBLACK", .bg 0), ("AC_BGRED", .bg 1), ("AC_BGGREEN", .bg 2), ("AC_BGBROWN", .bg 3), ("AC_BGBLUE", .bg 4),
   ("AC_BGMAGENTA", .bg 5), ("AC_BGMARINE", .bg 6), ("AC_BGLGREY", .bg 7), ("AC_BGWHITE", .bg 7),
   ("AC_BOLD", .style fun a => { a with weight := 1 }), ("AC_FAINT", .style fun a => { a with weight := 2 }),
   ("AC_CURSIVE", .style fun a => { a with italic := true }),
   ("AC_UNDERLINE", .style fun a => { a with underline := true }),
   ("AC_LIGHTBG", .style fun a => { a with slowBlink := true }),
   ("AC_BLINK", .style fun a => { a with fastBlink := true }),
   ("AC_INVERTED", .style fun a => { a with negative := true }),
   ("AC_INVERSE", .style fun a => { a with negative := true })]

/-- A character that is shown: no control character. -/
def Visible (b : Byte) : Prop := 32 ≤ b.toNat ∧ b ≠ 127#8

end Spec

namespace Minilib
open Spec

/-- The macros of include/ansicolors.h that do not do what they are called. -/
def acWrong : List String := ["AC_WHITE", "AC_BGGREEN", "AC_BGWHITE", "AC_INVERSE"]

/-- Full statement: whatever the look of the terminal is, a macro written to it shows nothing, leaves no unfinished
sequence behind, and changes the look to what the name promises. -/
def C104_macros_full : Prop := ∀ e ∈ promises, ∃ s, acString e.1 = some s ∧ ∀ (a : Attr) (out : List (Byte × Attr)),
  ∃ a', Term.puts ⟨.text, a, out⟩ s = ⟨.text, a', out⟩ ∧ e.2.Holds a a'

/-- The full statement for all macros but four. -/
theorem C104_macros_partial : ∀ e ∈ promises, e.1 ∉ acWrong → ∃ s, acString e.1 = some s ∧
    ∀ (a : Attr) (out : List (Byte × Attr)), ∃ a', Term.puts ⟨.text, a, out⟩ s = ⟨.text, a', out⟩ ∧ e.2.Holds a a' := by
  unfold promises
  simp only [List.forall_mem_cons]
  refine ⟨?_, ?_, ?_, ?_, ?_, ?_, ?_, ?_, ?_, ?_, ?_, ?_, ?_, ?_, ?_, ?_, ?_, ?_, ?_, ?_, ?_, ?_, ?_, ?_, ?_, ?_, ?_, ?_,
    ?_, ?_, ?_, ?_, ?_, ?_, ?_, ?_, ?_, by simp⟩
  all_goals first
    | exact fun _ => ⟨_, rfl, fun _ _ => ⟨_, rfl, rfl⟩⟩
    | exact fun _ => ⟨_, rfl, fun _ _ => ⟨_, rfl, rfl, rfl⟩⟩
    | exact fun h => absurd (by decide) h

/-- The four others: AC_BGGREEN gives up every colour and style, AC_WHITE and AC_BGWHITE name no colour, AC_INVERSE
hides the text. -/
theorem C104_wrong : ∀ a : Attr,
    (∃ s, acString "AC_BGGREEN" = some s ∧ Term.puts ⟨.text, a, []⟩ s = ⟨.text, {}, []⟩) ∧
    (∃ s, acString "AC_WHITE" = some s ∧ Term.puts ⟨.text, a, []⟩ s = ⟨.text, {}, []⟩) ∧
    (∃ s, acString "AC_BGWHITE" = some s ∧ Term.puts ⟨.text, a, []⟩ s = ⟨.text, a, []⟩) ∧
    (∃ s, acString "AC_INVERSE" = some s ∧ Term.puts ⟨.text, a, []⟩ s = ⟨.text, { a with conceal := true }, []⟩) :=
  fun _ => ⟨⟨_, rfl, rfl⟩, ⟨_, rfl, rfl⟩, ⟨_, rfl, rfl⟩, ⟨_, rfl, rfl⟩⟩

/-- AC_BGGREEN does not give a green background. -/
theorem C104_macros_refuted : ¬ C104_macros_full := by
  intro h
  obtain ⟨s, hs, hp⟩ := h ("AC_BGGREEN", .bg 2) (by simp [promises])
  obtain ⟨a', h1, h2⟩ := hp {} []
  obtain ⟨s', hs', h3⟩ := (C104_wrong {}).1
  have e : s = s' := Option.some.inj (hs.symm.trans hs')
  subst e
  rw [h3] at h1
  have ha : a' = {} := congrArg Term.attr h1.symm
  rw [ha] at h2
  exact absurd (congrArg Attr.bg h2) (by decide)

/-- A program that writes macros and text: each text is shown as the promise before it says. -/
inductive _root_.Spec.Looks : Attr → List (Promise × List Byte) → List (Byte × Attr) → Attr → Prop
  | nil (a : Attr) : Looks a [] [] a
  | cons (a a' a'' : Attr) (p : Promise) (text : List Byte) (l : List (Promise × List Byte)) (cells : List (Byte × Attr))
      (hp : p.Holds a a') (h : Looks a' l cells a'') :
      Looks a ((p, text) :: l) (text.map (fun b => (b, a')) ++ cells) a''

theorem puts_append (t : Term) (l r : List Byte) : t.puts (l ++ r) = (t.puts l).puts r := List.foldl_append

theorem puts_visible (text : List Byte) (hv : ∀ b ∈ text, Visible b) : ∀ (a : Attr) (out : List (Byte × Attr)),
    Term.puts ⟨.text, a, out⟩ text = ⟨.text, a, out ++ text.map fun b => (b, a)⟩ := by
  induction text with
  | nil => intro a out; simp [Term.puts]
  | cons b l ih =>
    intro a out
    have hb : b ≠ 27#8 := by
      intro e
      have := (hv b (by simp)).1
      rw [e] at this
      exact absurd this (by decide)
    have h1 : Term.put ⟨.text, a, out⟩ b = ⟨.text, a, out ++ [(b, a)]⟩ := by simp [Term.put, hb]
    show Term.puts (Term.put ⟨.text, a, out⟩ b) l = _
    rw [h1, ih (fun x hx => hv x (by simp [hx]))]
    simp

/-- Whatever the terminal showed before: of any sequence of macros (but the four) and texts, exactly the texts appear,
each in the look promised by the macro in front of it. -/
theorem C104_text_partial (pieces : List (String × Promise × List Byte))
    (hm : ∀ p ∈ pieces, (p.1, p.2.1) ∈ promises ∧ p.1 ∉ acWrong ∧ ∀ b ∈ p.2.2, Visible b) :
    ∃ s, (pieces.mapM fun p => (acString p.1).map (· ++ p.2.2)) = some s ∧ ∀ (a : Attr) (out : List (Byte × Attr)),
      ∃ cells a', Term.puts ⟨.text, a, out⟩ s.flatten = ⟨.text, a', out ++ cells⟩ ∧
        Looks a (pieces.map fun p => p.2) cells a' := by
  induction pieces with
  | nil => exact ⟨[], rfl, fun a out => ⟨[], a, by simp [Term.puts], .nil a⟩⟩
  | cons p l ih =>
    obtain ⟨s, h1, h2⟩ := ih (fun q hq => hm q (by simp [hq]))
    obtain ⟨g1, g2, g3⟩ := hm p (by simp)
    obtain ⟨m, e1, e2⟩ := C104_macros_partial _ g1 g2
    refine ⟨(m ++ p.2.2) :: s, ?_, fun a out => ?_⟩
    · rw [List.mapM_cons]
      simp only at e1
      rw [h1, e1]
      rfl
    · obtain ⟨a1, f1, f2⟩ := e2 a out
      obtain ⟨cells, a2, f3, f4⟩ := h2 a1 (out ++ p.2.2.map fun b => (b, a1))
      refine ⟨_, a2, ?_, .cons a a1 a2 p.2.1 p.2.2 _ cells f2 f4⟩
      rw [List.flatten_cons, puts_append, puts_append, f1, puts_visible _ g3, f3, List.append_assoc]

/-- `AC_RED "ab" AC_BGBLUE "c" AC_NORM "d"`. -/
example : Term.puts ⟨.text, { underline := true }, []⟩
    (ac ['[', '0', ';', '3', '1', 'm'] ++ [97#8, 98#8] ++ ac ['[', '4', '4', 'm'] ++ [99#8] ++
      ac ['[', '0', ';', '3', '8', ';', '4', '0', 'm'] ++ [100#8])
    = ⟨.text, {}, [(97#8, { fg := some 1 }), (98#8, { fg := some 1 }), (99#8, { fg := some 1, bg := some 4 }), (100#8, {})]⟩ :=
  rfl

/-- The hypotheses of `C104_text_partial` for that program. -/
example : ∀ p ∈ [("AC_RED", Promise.fg 1 0, [97#8, 98#8]), ("AC_BGBLUE", Promise.bg 4, [99#8]),
    ("AC_NORM", Promise.norm, [100#8])], (p.1, p.2.1) ∈ promises ∧ p.1 ∉ acWrong ∧ ∀ b ∈ p.2.2, Visible b := by
  simp [promises, acWrong, Visible]

/-- The table of macros is the table of promises, name by name; a short name stands for the same string as the long
one. -/
theorem C104_names : acTable.map (·.1) = promises.map (·.1) ∧
    ∀ x ∈ shortColors, acString x.2 ≠ none ∧ acString ("AC_" ++ x.1) = acString x.2 := by
  refine ⟨rfl, ?_⟩
  decide +kernel

/-- C104: `AC_RED` is one of the macros that keep their promise. -/
example : ("AC_RED", Promise.fg 1 0) ∈ promises ∧ "AC_RED" ∉ acWrong := by simp [promises, acWrong]

end Minilib

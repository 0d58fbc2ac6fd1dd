import Verif.Model.Stripundefs
/-
Conditional inclusion of the C preprocessor (C11 6.10.1), over lines.  Comments and lines continued by a backslash are not treated.
-/

set_option autoImplicit false

namespace Spec
open Minilib

/-- What a line is for conditional inclusion. -/
inductive LineKind where
  | cond | elif | els | endif | other
  deriving DecidableEq

def isBlank (b : Byte) : Bool := b = 32#8 || b = 9#8
def isLetter (b : Byte) : Bool := (97 ≤ b.toNat && b.toNat ≤ 122) || (65 ≤ b.toNat && b.toNat ≤ 90) || b = 95#8 || (48 ≤ b.toNat && b.toNat ≤ 57)

/-- The name of the directive on a line: blanks, `#`, blanks, and a word. -/
def directive (l : Line) : Option Line :=
  match l.dropWhile isBlank with
  | b :: r => if b = 35#8 then some ((r.dropWhile isBlank).takeWhile isLetter) else none
  | [] => none

/-- `if`, `ifdef`, `ifndef`; `elif`; `else`; `endif`. -/
def lineKind (l : Line) : LineKind :=
  match directive l with
  | none => .other
  | some w =>
    if w = [105#8, 102#8] ∨ w = [105#8, 102#8, 100#8, 101#8, 102#8] ∨ w = [105#8, 102#8, 110#8, 100#8, 101#8, 102#8] then .cond
    else if w = [101#8, 108#8, 105#8, 102#8] then .elif
    else if w = [101#8, 108#8, 115#8, 101#8] then .els
    else if w = [101#8, 110#8, 100#8, 105#8, 102#8] then .endif
    else .other

/-- A group of lines between a condition and its `#endif`: it is being included; some part of it was already; `#else` was seen. -/
structure PGroup where
  on : Bool
  taken : Bool
  last : Bool
  deriving DecidableEq

/-- The preprocessor: `out` are the lines included so far (which decide, by their definitions, what a condition is worth: `ev`), `st` the groups
around.  `none`: the text is malformed. -/
def preproc (ev : List Line → Line → Bool) (out : List Line) (st : List PGroup) : List Line → Option (List Line)
  | [] => if st = [] then some out else none
  | l :: ls =>
    let live := st.all (·.on)
    match lineKind l with
    | .cond => let b := live && ev out l
      preproc ev out (⟨b, b, false⟩ :: st) ls
    | .elif =>
      match st with
      | [] => none
      | g :: st' => if g.last then none else
        let b := !g.taken && st'.all (·.on) && ev out l
        preproc ev out (⟨b, g.taken || b, false⟩ :: st') ls
    | .els =>
      match st with
      | [] => none
      | g :: st' => if g.last then none else preproc ev out (⟨!g.taken, true, true⟩ :: st') ls
    | .endif =>
      match st with
      | [] => none
      | _ :: st' => preproc ev out st' ls
    | .other => preproc ev (if live then out ++ [l] else out) st ls

/-- The condition `0`: `#if 0` and nothing but blanks, carriage return and newline behind it. -/
def zeroLine (l : Line) : Prop := ∃ r, l = [35#8, 105#8, 102#8, 32#8, 48#8] ++ r ∧ ∀ b ∈ r, isBlank b = true ∨ b = 10#8 ∨ b = 13#8

/-- The worth of conditions: arbitrary, but 0 is false. -/
def Worth (ev : List Line → Line → Bool) : Prop := ∀ out l, zeroLine l → ev out l = false

/-- Conditions and `#endif` are written without blanks around the `#`. -/
def Flush (l : Line) : Prop :=
  (lineKind l = .cond ↔ [35#8, 105#8, 102#8] <+: l) ∧ (lineKind l = .endif ↔ [35#8, 101#8, 110#8, 100#8, 105#8, 102#8] <+: l)

/-- No `#else` and no `#elif` belongs to an `#if 0`; the stack tells which of the conditions around are `#if 0`. -/
def NoElse : List Bool → List Line → Prop
  | _, [] => True
  | st, l :: ls =>
    match lineKind l with
    | .cond => NoElse (decide ([35#8, 105#8, 102#8, 32#8, 48#8] <+: l) :: st) ls
    | .elif | .els => st.headD false = false ∧ NoElse st ls
    | .endif => NoElse st.tail ls
    | .other => NoElse st ls

end Spec

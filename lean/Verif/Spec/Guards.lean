import Verif.Spec.Preproc
/-
C121: headers included several times, and names that are alike.
-/

set_option autoImplicit false

namespace Spec
open Minilib

/-- Dot, slash and underscore. -/
def NameSep (b : Byte) : Prop := b = 46#8 ∨ b = 47#8 ∨ b = 95#8

/-- Two names that differ in dots, slashes and underscores only. -/
def Alike : Line → Line → Prop
  | [], [] => True
  | a :: x, b :: y => (a = b ∨ (NameSep a ∧ NameSep b)) ∧ Alike x y
  | _, _ => False

/-- `#ifndef included_` is worth what it says; the switch mini_INCLUDESRC is `v`. -/
def GuardWorth (ev : List Line → Line → Bool) (v : Bool) : Prop :=
  (∀ out g, ev out ([35, 105, 102, 110, 100, 101, 102, 32, 105, 110, 99, 108, 117, 100, 101, 100, 95] ++ g ++ [10#8]) = true ↔ [35, 100, 101, 102, 105, 110, 101, 32, 105, 110, 99, 108, 117, 100, 101, 100, 95] ++ g ++ [10#8] ∉ out) ∧
  ∀ out, ev out [35, 105, 102, 100, 101, 102, 32, 109, 105, 110, 105, 95, 73, 78, 67, 76, 85, 68, 69, 83, 82, 67, 10] = v

/-- Declarations: no directives for conditions, and no definitions of guards. -/
def Decls (ls : List Line) : Prop := ∀ l ∈ ls, lineKind l = .other ∧ ¬ [35, 100, 101, 102, 105, 110, 101, 32, 105, 110, 99, 108, 117, 100, 101, 100, 95] <+: l

/-- Lines with conditions that are ended, with or without `#else` (`#elif` left out). -/
inductive Balanced : List Line → Prop
  | nil : Balanced []
  | line {l : Line} {ls : List Line} : lineKind l = .other → Balanced ls → Balanced (l :: ls)
  | group {c e : Line} {a ls : List Line} : lineKind c = .cond → lineKind e = .endif → Balanced a → Balanced ls → Balanced (c :: (a ++ e :: ls))
  | alt {c s e : Line} {a b ls : List Line} : lineKind c = .cond → lineKind s = .els → lineKind e = .endif → Balanced a → Balanced b → Balanced ls →
      Balanced (c :: (a ++ s :: (b ++ e :: ls)))

/-- Each name once, in the order in which they come first. -/
def onceEach (seen : List Line) : List Line → List Line
  | [] => []
  | h :: hs => if h ∈ seen then onceEach seen hs else h :: onceEach (h :: seen) hs

end Spec

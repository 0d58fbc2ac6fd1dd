import Verif.Spec.Preproc
/-
Specification for C117: switches, the conditions on them, and what a function requires.
-/

set_option autoImplicit false

namespace Spec
open Minilib

/-- "mini_" and a name, at the end of a line. -/
def switchOf (n : Line) : Line := [109, 105, 110, 105, 95] ++ n ++ [10#8]

/-- The line `#define mini_n`. -/
def defLine (n : Line) : Line := [35, 100, 101, 102, 105, 110, 101, 32] ++ switchOf n

/-- The function `n` is switched on by the lines. -/
def SwitchedOn (out : List Line) (n : Line) : Prop := defLine n ∈ out

/-- The conditions `#ifdef mini_n` and `#ifndef mini_n` are worth what they say. -/
def TestsSwitches (ev : List Line → Line → Bool) : Prop := ∀ out n,
  (ev out ([35, 105, 102, 100, 101, 102, 32] ++ switchOf n) = true ↔ SwitchedOn out n) ∧
  (ev out ([35, 105, 102, 110, 100, 101, 102, 32] ++ switchOf n) = true ↔ ¬ SwitchedOn out n)

/-- `n` is `k` steps away from `f` along the dependencies of the keys. -/
inductive Requires (dep : Line → List Line) (keys : List Line) : Nat → Line → Line → Prop
  | self (f : Line) : Requires dep keys 0 f f
  | step {k : Nat} {f g n : Line} : f ∈ keys → g ∈ dep f → Requires dep keys k g n → Requires dep keys (k + 1) f n

/-- `n` is reached from `f` by going once through the keys. -/
inductive InOrder (dep : Line → List Line) : List Line → Line → Line → Prop
  | self (ks : List Line) (f : Line) : InOrder dep ks f f
  | skip {ks : List Line} {k f n : Line} : InOrder dep ks f n → InOrder dep (k :: ks) f n
  | take {ks : List Line} {f g n : Line} : g ∈ dep f → InOrder dep ks g n → InOrder dep (f :: ks) f n

end Spec

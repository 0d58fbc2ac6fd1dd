import Verif.Model.Combine
/-
A source and everything it includes.
-/

set_option autoImplicit false

namespace Spec
open Minilib

/-- The lines of a file that are no `#include`. -/
def plainLines (fs : Line → Option (List Line)) (f : Line) : List Line := ((fs f).getD []).filter (fun l => (includeName l).isNone)

/-- The file `f` names the file `g` in an `#include`. -/
def Names (fs : Line → Option (List Line)) (f g : Line) : Prop :=
  ∃ ls l, fs f = some ls ∧ l ∈ ls ∧ includeName l = some g ∧ g ≠ [] ∧ g ≠ [48#8]

/-- Included from `f`, by any number of steps. -/
inductive Within (fs : Line → Option (List Line)) (f : Line) : Line → Prop where
  | self : Within fs f f
  | step {g h : Line} : Within fs f g → Names fs g h → Within fs f h

/-- Lines with every `#include` replaced by the file it names, the first time it is named, and by nothing any other time: `Once fs seen ls seen' out`. -/
inductive Once (fs : Line → Option (List Line)) : List Line → List Line → List Line → List Line → Prop where
  | nil (seen : List Line) : Once fs seen [] seen []
  | plain {seen ls seen' out : List Line} {l : Line} : includeName l = none → Once fs seen ls seen' out → Once fs seen (l :: ls) seen' (l :: out)
  | skip {seen ls seen' out : List Line} {l m : Line} : includeName l = some m → (m = [] ∨ m = [48#8] ∨ m ∈ seen) → Once fs seen ls seen' out →
      Once fs seen (l :: ls) seen' out
  | file {seen mid ls seen' o1 o2 : List Line} {l m : Line} : includeName l = some m → m ∉ seen →
      Once fs (m :: seen) ((fs m).getD []) mid o1 → Once fs mid ls seen' o2 → Once fs seen (l :: ls) seen' (o1 ++ o2)

end Spec

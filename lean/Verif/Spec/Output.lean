import Verif.Spec.Str
import Verif.Model.Output
/-
The small format language of fprintfs and snprintfs, and what a sequence of `write` calls delivers.
-/

set_option autoImplicit false

namespace Spec
open Minilib

/-- An element of a format: a character, `%s`, `%c`, or `%` and a character without meaning. -/
inductive SfItem where
  | lit (c : Byte)
  | str (p : Nat) (s : List Byte)
  | chr (v : BitVec 32)
  | other (c : Byte)

/-- How an element is written. -/
def SfItem.text : SfItem → List Byte
  | .lit c => [c]
  | .str _ _ => [37#8, 115#8]
  | .chr _ => [37#8, 99#8]
  | .other c => [37#8, c]

/-- The argument of an element. -/
def SfItem.args : SfItem → List PfArg
  | .str p _ => [.str p]
  | .chr v => [.int v]
  | _ => []

/-- A literal is not '%' and not NUL; the strings are in memory, at non-null addresses. -/
def SfItem.Ok (m : Mem) : SfItem → Prop
  | .lit c => c ≠ 0#8 ∧ c ≠ 37#8
  | .str p s => m.IsStr p s ∧ p ≠ 0 ∧ s.length < 2147483648
  | .chr _ => True
  | .other c => c ≠ 0#8 ∧ c ≠ 115#8 ∧ c ≠ 99#8

/-- The string of the element lies outside of `[buf, buf+size)`. -/
def SfItem.Apart (buf size : Nat) : SfItem → Prop
  | .str p s => p + s.length < buf ∨ buf + size ≤ p
  | _ => True

/-- What an element stands for; an unknown `%x` stands for `unknown x`. -/
def SfItem.out (unknown : Byte → List Byte) : SfItem → List Byte
  | .lit c => [c]
  | .str _ s => s
  | .chr v => [v.setWidth 8]
  | .other c => unknown c

/-- The format. -/
def sfText (its : List SfItem) : List Byte := its.flatMap SfItem.text
/-- The arguments. -/
def sfArgs (its : List SfItem) : List PfArg := its.flatMap SfItem.args
/-- The text the format stands for. -/
def sfOut (unknown : Byte → List Byte) (its : List SfItem) : List Byte := its.flatMap (SfItem.out unknown)

/-- The kernel takes all bytes it is offered. -/
def Accepting (K : WKernel) : Prop := ∀ w fd l, K w fd l = (l.length : Int)

/-- Errors are reported by small negative numbers (-1 or the negated error number). -/
def ErrnoKernel (K : WKernel) : Prop := ∀ w fd l, -4095 ≤ K w fd l

/-- Offering the pieces `ss` to `fd` one after the other: what was taken, and the sum of the answers. -/
def offer (K : WKernel) (fd : Int) : Writes → List (List Byte) → Writes × Int
  | w, [] => (w, 0)
  | w, s :: ss => ((offer K fd (sysWrite K w fd s).1 ss).1, (sysWrite K w fd s).2 + (offer K fd (sysWrite K w fd s).1 ss).2)

/-- What was delivered to `fd` in a history of writes. -/
def delivered (fd : Int) (w : Writes) : List Byte := (w.filter (fun x => x.1 = fd)).flatMap (fun x => x.2)

end Spec

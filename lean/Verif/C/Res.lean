/-
Outcome of running a piece of C.

`ok a`  : the code returned normally with value `a`
`ub`    : the code performed an access or operation that has no defined meaning
          (load or store outside every mapped object, ...)
`div`   : the code never returns

Undefined behaviour is kept as an outcome of its own, distinct from a normal return and from
non-termination.  Loops of the C code are written with `partial_fixpoint`, so there is no step
bound ("fuel") anywhere: a loop that runs forever in C is `div` in the model.
-/

/-- Outcome of a C computation. -/
inductive Res (α : Type) where
  | ok (a : α)
  | ub
  | div
  deriving DecidableEq, Repr

set_option autoImplicit false

namespace Res

/-- Sequencing: an undefined or diverging first half is never repaired by the second half. -/
protected def bind {α β : Type} : Res α → (α → Res β) → Res β
  | .ok a, f => f a
  | .ub, _ => .ub
  | .div, _ => .div

instance : Monad Res where
  pure := .ok
  bind := Res.bind

@[simp] theorem pure_eq {α : Type} (a : α) : (pure a : Res α) = .ok a := rfl
@[simp] theorem ok_bind {α β : Type} (a : α) (f : α → Res β) : (Res.ok a >>= f) = f a := rfl
@[simp] theorem ub_bind {α β : Type} (f : α → Res β) : ((Res.ub : Res α) >>= f) = .ub := rfl
@[simp] theorem div_bind {α β : Type} (f : α → Res β) : ((Res.div : Res α) >>= f) = .div := rfl
@[simp] theorem map_ok {α β : Type} (f : α → β) (a : α) : f <$> (Res.ok a) = .ok (f a) := rfl
@[simp] theorem map_ub {α β : Type} (f : α → β) : f <$> (Res.ub : Res α) = .ub := rfl
@[simp] theorem map_div {α β : Type} (f : α → β) : f <$> (Res.div : Res α) = .div := rfl

instance : LawfulMonad Res := LawfulMonad.mk'
  (id_map := by intro α x; cases x <;> rfl)
  (pure_bind := by intros; rfl)
  (bind_assoc := by intro α β γ x f g; cases x <;> rfl)

theorem bind_eq_ok {α β : Type} {x : Res α} {f : α → Res β} {b : β} :
    (x >>= f) = .ok b ↔ ∃ a, x = .ok a ∧ f a = .ok b := by
  cases x <;> simp

open Lean.Order

instance {α : Type} : PartialOrder (Res α) :=
  inferInstanceAs (PartialOrder (FlatOrder (Res.div : Res α)))

noncomputable instance {α : Type} : CCPO (Res α) :=
  inferInstanceAs (CCPO (FlatOrder (Res.div : Res α)))

noncomputable instance : MonoBind Res where
  bind_mono_left h := by
    cases h
    · exact FlatOrder.rel.bot
    · exact FlatOrder.rel.refl
  bind_mono_right h := by
    rename_i a _ _
    cases a
    · exact h _
    · exact FlatOrder.rel.refl
    · exact FlatOrder.rel.refl

end Res

/-
Specification of handlers at exit: a stack of limited size.
-/

set_option autoImplicit false

namespace Spec

/-- Registering `f` when `fs` are registered and `n` is the limit: what is registered afterwards, and whether it worked. -/
def register (n : Nat) (fs : List Nat) (f : Nat) : List Nat × Bool :=
  if fs.length < n then (f :: fs, true) else (fs, false)

/-- A history of registrations: the stack in the end, and which ones worked. -/
def registerAll (n : Nat) : List Nat → List Nat → List Nat × List Bool
  | st, [] => (st, [])
  | st, f :: fs => ((registerAll n (register n st f).1 fs).1, (register n st f).2 :: (registerAll n (register n st f).1 fs).2)

end Spec

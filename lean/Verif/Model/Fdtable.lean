/-
The table of descriptors the kernel keeps for a process: system calls of /repo/include/syscall_stubs.h use it (`open`, `close`
and those on descriptors).  Kernel side, no code of /repo.
-/

set_option autoImplicit false

namespace Minilib

/-- The descriptor `fd`. -/
def fdGet {α : Type} (l : List (Option α)) (fd : Int) : Option α := if fd < 0 then none else l.getD fd.toNat none

/-- The lowest unused descriptor. -/
def fdLowest {α : Type} : List (Option α) → Nat
  | [] => 0
  | none :: _ => 0
  | some _ :: l => fdLowest l + 1

/-- The table with entry `i` replaced. -/
def fdPut {α : Type} (l : List (Option α)) (i : Nat) (x : Option α) : List (Option α) :=
  if i < l.length then l.set i x else l ++ List.replicate (i - l.length) none ++ [x]

end Minilib

import Verif.C.Mem
/-
Specification of the search in PATH; 58 is ':', 47 '/', 46 '.'.
-/

set_option autoImplicit false

namespace Spec


/-- The elements of a PATH. -/
def splitPath : List Byte → List (List Byte)
  | [] => [[]]
  | b :: s =>
    if b = 58#8 then [] :: splitPath s
    else
      match splitPath s with
      | [] => [[b]]
      | e :: es => (b :: e) :: es

/-- The path of a program in a directory; an empty element of PATH is the current directory. -/
def candidate (name e : List Byte) : List Byte := (if e = [] then [46#8] else e) ++ 47#8 :: name

/-- The first directory with the program. -/
def search (access : List Byte → Bool) (name : List Byte) (es : List (List Byte)) : Option (List Byte) :=
  (es.map (candidate name)).find? access

/-- A program of this name is looked for in PATH only when there is no slash in it; the path that is executed. -/
def execPath (access : List Byte → Bool) (name path : List Byte) : Option (List Byte) :=
  if name = [] ∨ 47#8 ∈ name then some name else search access name (splitPath path)

/-- The status of a child that exited with a code, or was killed by a signal (with or without a core dump), as the kernel encodes it. -/
def exitedWith (code : Nat) : Nat := code * 256
def killedBy (sig : Nat) (core : Bool) : Nat := sig + (if core then 128 else 0)

end Spec

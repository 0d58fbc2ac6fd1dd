import Verif.C.Mem
/-
Specification of `basename` and `dirname` (POSIX), on the text of a path; 47 is '/', 46 is '.'.
-/

set_option autoImplicit false

namespace Spec


/-- Without the slashes at the end. -/
def rstrip (s : List Byte) : List Byte := (s.reverse.dropWhile (· = 47#8)).reverse

/-- Without the last component (up to the last slash, which stays). -/
def dropName (s : List Byte) : List Byte := (s.reverse.dropWhile (· ≠ 47#8)).reverse

/-- The last component of a path without slashes at the end. -/
def lastName (s : List Byte) : List Byte := (s.reverse.takeWhile (· ≠ 47#8)).reverse

/-- The final component; "/" for a path of slashes only, "." for an empty path. -/
def baseName (s : List Byte) : List Byte :=
  if s = [] then [46#8]
  else if rstrip s = [] then [47#8]
  else lastName (rstrip s)

/-- The directory part: "/" for a path of slashes only, or when only slashes are before the final component; "." when
there is nothing before it. -/
def dirName (s : List Byte) : List Byte :=
  if s = [] then [46#8]
  else if rstrip s = [] then [47#8]
  else if dropName (rstrip s) = [] then [46#8]
  else if rstrip (dropName (rstrip s)) = [] then [47#8]
  else rstrip (dropName (rstrip s))

end Spec

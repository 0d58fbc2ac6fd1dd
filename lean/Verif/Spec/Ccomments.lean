import Verif.C.Mem
/-
Texts with comments, line by line (C101).
-/

set_option autoImplicit false

namespace Spec

/-- A line without its newline. -/
def chomp (l : List Byte) : List Byte := if l.getLast? = some 10#8 then l.dropLast else l

/-- A line without the blanks at its end. -/
def trimEnd (l : List Byte) : List Byte := (l.reverse.dropWhile (fun c => decide (c.toNat ≤ 32))).reverse

/-- Bytes of ASCII other than NUL. -/
def Ascii (l : List Byte) : Prop := ∀ c ∈ l, c ≠ 0#8 ∧ c.toNat < 128

/-- Only blanks. -/
def Blank (l : List Byte) : Prop := ∀ c ∈ l, c.toNat ≤ 32

/-- The inside of a string literal, with escaped characters other than the backslash. -/
inductive StrBody : List Byte → Prop
  | nil : StrBody []
  | chr (c : Byte) (l : List Byte) : c ≠ 34#8 → c ≠ 92#8 → StrBody l → StrBody (c :: l)
  | esc (c : Byte) (l : List Byte) : c ≠ 92#8 → StrBody l → StrBody (92#8 :: c :: l)

/-- Code without comments: string literals are closed; a slash outside of them is neither followed by a slash nor by a star. -/
inductive Code : List Byte → Prop
  | nil : Code []
  | chr (c : Byte) (l : List Byte) : c ≠ 34#8 → c ≠ 47#8 → Code l → Code (c :: l)
  | slashEnd : Code [47#8]
  | slash (d : Byte) (l : List Byte) : d ≠ 42#8 → d ≠ 47#8 → Code (d :: l) → Code (47#8 :: d :: l)
  | str (v l : List Byte) : StrBody v → Code l → Code (34#8 :: (v ++ 34#8 :: l))

/-- No end of a comment. -/
def NoEnd (l : List Byte) : Prop := ∀ t, l[t]? = some 42#8 → l[t + 1]? ≠ some 47#8

/-- Whether a line is continued. -/
def Continued (l : List Byte) : Prop := l.getLast? = some 92#8

instance (l : List Byte) : Decidable (Continued l) := inferInstanceAs (Decidable (l.getLast? = some 92#8))

/-- What is open at the start of a line: nothing, a comment, or a `//` comment that the previous line continues. -/
inductive Mode where
  | code
  | block
  | line

/-- What remains of a text, line by line: comments have whole lines, or start behind the code of a line and end, before other code, in a later one. -/
inductive Doc : Mode → List (List Byte) → List (List Byte) → Prop
  | nil (m : Mode) : Doc m [] []
  /-- Code. -/
  | code (l : List Byte) (ls os : List (List Byte)) : Code (trimEnd l) → Doc .code ls os → Doc .code (l :: ls) (trimEnd l :: os)
  /-- A line that is a `//` comment. -/
  | line (b r : List Byte) (ls os : List (List Byte)) : Blank b → Doc (if Continued (b ++ 47#8 :: 47#8 :: r) then .line else .code) ls os →
      Doc .code ((b ++ 47#8 :: 47#8 :: r) :: ls) ([] :: os)
  /-- A line that belongs to the `//` comment of the previous one. -/
  | more (l : List Byte) (ls os : List (List Byte)) : Doc (if Continued l then .line else .code) ls os → Doc .line (l :: ls) ([] :: os)
  /-- A line that is a comment. -/
  | whole (b a t : List Byte) (ls os : List (List Byte)) : Blank b → NoEnd (a ++ [42#8]) → Blank t → Doc .code ls os →
      Doc .code ((b ++ 47#8 :: 42#8 :: (a ++ 42#8 :: 47#8 :: t)) :: ls) ([] :: os)
  /-- A line with the start of a comment. -/
  | «open» (b a : List Byte) (ls os : List (List Byte)) : Blank b → NoEnd a → Doc .block ls os → Doc .code ((b ++ 47#8 :: 42#8 :: a) :: ls) ([] :: os)
  /-- A line with the start of a comment behind code. -/
  | tail (u a : List Byte) (ls os : List (List Byte)) : Code u → ¬ Blank u → u.getLast? ≠ some 47#8 → NoEnd a → Doc .block ls os →
      Doc .code ((u ++ 47#8 :: 42#8 :: a) :: ls) (u :: os)
  /-- A line inside of a comment. -/
  | inside (l : List Byte) (ls os : List (List Byte)) : NoEnd l → Doc .block ls os → Doc .block (l :: ls) ([] :: os)
  /-- A line with the end of a comment. -/
  | close (a t : List Byte) (ls os : List (List Byte)) : NoEnd (a ++ [42#8]) → Code (trimEnd t) → Doc .code ls os →
      Doc .block ((a ++ 42#8 :: 47#8 :: t) :: ls) (trimEnd t :: os)

end Spec

import Verif.Model.Termios
/-
What a user expects of terminal settings.
-/

set_option autoImplicit false

namespace Spec
open Minilib Mem

/-- `w'` is `w` with the named bits cleared. -/
def Cleared (w w' : BitVec 32) (bits : List Nat) : Prop := ∀ i, i < 32 → w'.getLsbD i = (w.getLsbD i && !bits.contains i)

/-- Raw mode (cfmakeraw(3)): no IGNBRK, BRKINT, PARMRK, ISTRIP, INLCR, IGNCR, ICRNL, IXON; no OPOST; no ISIG, ICANON, ECHO, ECHONL, IEXTEN; eight bits, no
PARENB; one byte at a time; all else as before. -/
structure RawMode (t t' : KTerm) : Prop where
  iflag : Cleared t.iflag t'.iflag [0, 1, 3, 5, 6, 7, 8, 10]
  oflag : Cleared t.oflag t'.oflag [0]
  lflag : Cleared t.lflag t'.lflag [0, 1, 3, 6, 15]
  cflag : ∀ i, i < 32 → t'.cflag.getLsbD i = ((t.cflag.getLsbD i && !(i == 8)) || (i == 4) || (i == 5))
  line : t'.line = t.line
  cc : t'.cc = (t.cc.set 6 1#8).set 5 0#8

/-- The `struct termios` at `a` has the settings `t`. -/
structure TermAt (m : Mem) (a : Nat) (t : KTerm) : Prop where
  iflag : m.HasW a t.iflag
  oflag : m.HasW (a + 4) t.oflag
  cflag : m.HasW (a + 8) t.cflag
  lflag : m.HasW (a + 12) t.lflag
  line : m (a + 16) = some t.line
  cc : m.Holds (a + 17) t.cc

end Spec

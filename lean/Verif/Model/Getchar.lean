import Verif.Model.Streams
/-
getchar: /repo/include/fgetc.h.
-/

set_option autoImplicit false

namespace Minilib

/-- include/fgetc.h:10-11 `getchar`, which is `fgetc(0)` (src/streams/fgetc.c:5-16): with `mini_ungetc` line 8 reads
through the NULL pointer; without it `fileno(0)` is descriptor 0 (include/mini_fstream.h:56-58).  `s` is what
descriptor 0 delivers. -/
def getchar (K : RKernel) (ung : Bool) (s : Input) : Res (Int × Input) :=
  if ung = true then .ub
  else match (sysRead K s 1).2.1 with
    | b :: _ => .ok ((b.toNat : Int), (sysRead K s 1).2.2)
    | [] => .ok (0, (sysRead K s 1).2.2)

end Minilib

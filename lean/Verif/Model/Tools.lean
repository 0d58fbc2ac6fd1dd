import Verif.Model.Prints
import Verif.Model.Streams
import Verif.Model.Bits
/-
Model of /repo/tools/stripblanks.c and /repo/tools/stripblanklines.c, built with the library: filters from standard input to standard output.
-/

set_option autoImplicit false

namespace Minilib

/-- "Warning: line > MAXLEN\n" with its NUL, which `ewrites` writes, too (tools/stripblanks.c:29). -/
def warnText : List Byte :=
  [87, 97, 114, 110, 105, 110, 103, 58, 32, 108, 105, 110, 101, 32, 62, 32, 77, 65, 88, 76, 69, 78, 10, 0]

/-- tools/stripblanks.c:37: `for ( a=0; isspace(buf[a]); a++ );`, from `a` on; the `int` a is not bounded here. -/
def skipSpace (m : Mem) (buf a : Nat) : Res Nat := do
  let c ← m.load (buf + a)
  if isspace (c.signExtend 32) then skipSpace m buf (a + 1) else pure a
partial_fixpoint

/-- tools/stripblanks.c:30-33: the loop for long lines. -/
def stripLong (K : RKernel) (W : WKernel) (ung : Bool) (m : Mem) (buf : Nat) (F : Stream) (w : Writes) : Res (Mem × Stream × Writes) := do
  let r ← printStr W m w 2 buf
  let q ← prints W m r.1 1 [buf]
  let g ← fgets K ung m buf 1024 F
  if g.2.1 ≠ 0 then do
    let n ← strlen g.1 buf
    if n ≥ 1024 then stripLong K W ung g.1 buf g.2.2 q.1 else pure (g.1, g.2.2, q.1)
  else pure (g.1, g.2.2, q.1)
partial_fixpoint

/-- tools/stripblanks.c:23-44 (`lead`) and tools/stripblanklines.c:15-36: the loop of `main`; `buf` is the local array, `F` is stdin. -/
def stripMain (lead : Bool) (K : RKernel) (W : WKernel) (ung : Bool) (m : Mem) (buf : Nat) (F : Stream) (w : Writes) : Res (Mem × Stream × Writes) := do
  let g ← fgets K ung m buf 1024 F
  if g.2.1 ≠ 0 then do
    let n ← strlen g.1 buf
    if n ≥ 1024 then do
      let s ← stripLong K W ung g.1 buf g.2.2 (sysWrite W w 2 warnText).1
      let r ← printStr W s.1 s.2.2 2 buf
      let q ← prints W s.1 r.1 1 [buf]
      stripMain lead K W ung s.1 buf s.2.1 q.1
    else do
      let a ← skipSpace g.1 buf 0
      let c ← g.1.load (buf + a)
      if c ≠ 0#8 then do
        let q ← prints W g.1 w 1 [if lead then buf + a else buf]
        stripMain lead K W ung g.1 buf g.2.2 q.1
      else stripMain lead K W ung g.1 buf g.2.2 w
  else pure (g.1, g.2.2, w)
partial_fixpoint

end Minilib

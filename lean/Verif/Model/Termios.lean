import Verif.C.Word
/-
Model of /repo/src/termios/{tcgetattr,tcsetattr,cfmakeraw,isatty,tcgetpgrp,tcsetpgrp}.c, /repo/src/system/ioctl.c, /repo/include/{termio,tcgetattr,tcsetattr}.h.

`struct termios` (include/termio.h:13-21): four flag words at 0, 4, 8, 12, c_line at 16, c_cc[32] at 17, speeds at 52 and 56; 60 bytes.  The kernel's
`struct termios` are the first 36 bytes of it (19 control characters); its `struct termio` has four flags of 16 bits at 0, 2, 4, 6, c_line at 8, c_cc[8] at
9 and a byte of padding; 18 bytes.
-/

set_option autoImplicit false

namespace Minilib
open Mem

/-- The settings of a terminal, in the kernel. -/
structure KTerm where
  iflag : BitVec 32
  oflag : BitVec 32
  cflag : BitVec 32
  lflag : BitVec 32
  line : Byte
  cc : List Byte

/-- A terminal: settings, foreground process group, the kernel's verdict on other groups (0 or an error), number of the pseudo terminal (an error for
none), and the answers to requests not modelled. -/
structure Tty where
  term : KTerm
  pgrp : BitVec 32
  pgok : BitVec 32 → Int
  ptn : Except Int Nat
  other : Int → Int

/-- The open descriptors that are terminals. -/
abbrev TtyTab := Int → Option Tty

/-- The table with other settings for `fd`. -/
def TtyTab.setTerm (K : TtyTab) (fd : Int) (t : Tty) (s : KTerm) : TtyTab := fun f => if f = fd then some { t with term := s } else K f

/-- A `unsigned short` in memory. -/
def halfBytes (w : BitVec 16) : List Byte := [w.extractLsb' 0 8, w.extractLsb' 8 8]

/-- `*(unsigned short*)a`. -/
def loadH (m : Mem) (a : Nat) : Res (BitVec 16) := do
  let b0 ← m.load a
  let b1 ← m.load (a + 1)
  pure (b1 ++ b0)

/-- Linux, `struct termios` copied to a process. -/
def KTerm.bytesS (t : KTerm) : List Byte :=
  wordBytes t.iflag ++ (wordBytes t.oflag ++ (wordBytes t.cflag ++ (wordBytes t.lflag ++ (t.line :: t.cc))))

/-- Linux, `struct termio` copied to a process (kernel_termios_to_user_termio). -/
def KTerm.bytesA (t : KTerm) : List Byte :=
  halfBytes (t.iflag.setWidth 16) ++ (halfBytes (t.oflag.setWidth 16) ++ (halfBytes (t.cflag.setWidth 16) ++ (halfBytes (t.lflag.setWidth 16) ++
    (t.line :: (t.cc.take 8 ++ [0#8])))))

/-- Linux, `struct termios` copied from a process. -/
def kReadS (m : Mem) (a : Nat) : Res KTerm := do
  let i ← m.loadW (a : Int)
  let o ← m.loadW ((a + 4 : Nat) : Int)
  let c ← m.loadW ((a + 8 : Nat) : Int)
  let l ← m.loadW ((a + 12 : Nat) : Int)
  let n ← m.load (a + 16)
  let cc ← m.loadBytes (a + 17) 19
  pure ⟨i, o, c, l, n, cc⟩

/-- Linux, `struct termio` copied from a process onto the settings (user_termio_to_kernel_termios): the upper halves stay. -/
def kReadA (t : KTerm) (m : Mem) (a : Nat) : Res KTerm := do
  let i ← loadH m a
  let o ← loadH m (a + 2)
  let c ← loadH m (a + 4)
  let l ← loadH m (a + 6)
  let n ← m.load (a + 8)
  let cc ← m.loadBytes (a + 9) 8
  pure ⟨t.iflag.extractLsb' 16 16 ++ i, t.oflag.extractLsb' 16 16 ++ o, t.cflag.extractLsb' 16 16 ++ c, t.lflag.extractLsb' 16 16 ++ l, n, cc ++ t.cc.drop 8⟩

/-- Linux: the ioctls of terminals used here; -ENOTTY for what is no terminal, -EFAULT for a wild pointer.  The drivers are taken to accept all settings,
and TCSETAW, TCSETAF to differ from TCSETA only in what becomes of pending data. -/
def kIoctl (m : Mem) (K : TtyTab) (fd : Int) (req : Int) (a : Nat) : Mem × TtyTab × Int :=
  match K fd with
  | none => (m, K, -25)
  | some t =>
    if req = 0x5401 then
      match m.loadBytes a 36 with
      | .ok _ => (m.write a t.term.bytesS, K, 0)
      | _ => (m, K, -14)
    else if req = 0x5402 ∨ req = 0x5403 ∨ req = 0x5404 then
      match kReadS m a with
      | .ok s => (m, K.setTerm fd t s, 0)
      | _ => (m, K, -14)
    else if req = 0x5405 then
      match m.loadBytes a 18 with
      | .ok _ => (m.write a t.term.bytesA, K, 0)
      | _ => (m, K, -14)
    else if req = 0x5406 ∨ req = 0x5407 ∨ req = 0x5408 then
      match kReadA t.term m a with
      | .ok s => (m, K.setTerm fd t s, 0)
      | _ => (m, K, -14)
    else (m, K, t.other req)

/-- src/termios/tcgetattr.c:12-15: TCGETA.  This is the one minilib.c:751 includes. -/
def tcgetattr (m : Mem) (K : TtyTab) (fd : Int) (io : Nat) : Mem × Int :=
  let r := kIoctl m K fd 0x5405 io
  (r.1, r.2.2)

/-- src/termios/tcsetattr.c:12-15: TCSETA + opt (minilib.c:161). -/
def tcsetattr (m : Mem) (K : TtyTab) (fd opt : Int) (io : Nat) : Mem × TtyTab × Int := kIoctl m K fd (0x5406 + opt) io

/-- include/tcgetattr.h:14-18: TCGETS.  The header has the same guard as the source file. -/
def tcgetattrH (m : Mem) (K : TtyTab) (fd : Int) (io : Nat) : Mem × Int :=
  let r := kIoctl m K fd 0x5401 io
  (r.1, r.2.2)

/-- include/tcsetattr.h:17-20: TCSETS + opt. -/
def tcsetattrH (m : Mem) (K : TtyTab) (fd opt : Int) (io : Nat) : Mem × TtyTab × Int := kIoctl m K fd (0x5402 + opt) io

/-- `*p &= ~mask`. -/
def clearW (m : Mem) (p : Nat) (mask : BitVec 32) : Res Mem := do
  let w ← m.loadW (p : Int)
  m.storeW (p : Int) (w &&& ~~~mask)

/-- src/termios/cfmakeraw.c:5-13; the flags of headers/common/termios.h:24-135. -/
def cfmakeraw (m : Mem) (tp : Nat) : Res Mem := do
  let m ← clearW m tp (0o1#32 ||| 0o2#32 ||| 0o10#32 ||| 0o40#32 ||| 0o100#32 ||| 0o200#32 ||| 0o400#32 ||| 0o2000#32)
  let m ← clearW m (tp + 4) 0o1#32
  let m ← clearW m (tp + 12) (0o10#32 ||| 0o100#32 ||| 0o2#32 ||| 0o1#32 ||| 0o100000#32)
  let m ← clearW m (tp + 8) (0o60#32 ||| 0o400#32)
  let w ← m.loadW ((tp + 8 : Nat) : Int)
  let m ← m.storeW ((tp + 8 : Nat) : Int) (w ||| 0o60#32)
  let m ← m.store (tp + 17 + 6) 1#8
  m.store (tp + 17 + 5) 0#8

/-- src/termios/isatty.c:6-8; `term` is the address of the local struct. -/
def isatty (m : Mem) (K : TtyTab) (fd : Int) (term : Nat) : Int := if (tcgetattr m K fd term).2 = 0 then 1 else 0

/-- src/termios/tcgetpgrp.c:2-7; the kernel stores the group in the local variable. -/
def tcgetpgrp (K : TtyTab) (fd : Int) : Int :=
  match K fd with
  | none => -1
  | some t => t.pgrp.toInt

/-- src/termios/tcsetpgrp.c:2-5: the kernel's answer as it is. -/
def tcsetpgrp (K : TtyTab) (fd : Int) (pgrp : BitVec 32) : TtyTab × Int :=
  match K fd with
  | none => (K, -25)
  | some t => if t.pgok pgrp = 0 then (fun f => if f = fd then some { t with pgrp := pgrp } else K f, 0) else (K, t.pgok pgrp)

end Minilib

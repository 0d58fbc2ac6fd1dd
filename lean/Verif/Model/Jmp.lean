import Verif.C.Word
import Verif.Model.Userdb
/-
setjmp and longjmp: /repo/asm/jmp-x64.c (the same instructions are in /repo/asm/jmp-x64.S), with the part of the
processor they use.
-/

set_option autoImplicit false

namespace Minilib

/-- The general registers of x86-64 the two functions mention. -/
inductive Reg | rax | rbx | rdx | rsi | rdi | rbp | rsp | r12 | r13 | r14 | r15
  deriving DecidableEq, Repr

/-- The instructions of asm/jmp-x64.c:11-45; `jnz k` is a jump over the next `k` instructions. -/
inductive Instr
  | mov (s d : Reg)
  | load (o : Nat) (b d : Reg)
  | store (s : Reg) (o : Nat) (b : Reg)
  | lea (o : Nat) (b d : Reg)
  | test (r : Reg)
  | jnz (k : Nat)
  | inc (r : Reg)
  | xor (r : Reg)
  | ret
  | jmp (r : Reg)

/-- Registers, zero flag and memory.  The other flags, the vector registers and MXCSR are not modelled: the two
functions neither save nor restore them. -/
structure Cpu where
  reg : Reg → BitVec 64
  zf : Bool
  mem : Mem

namespace Cpu

/-- A register gets a value. -/
def set (s : Cpu) (r : Reg) (v : BitVec 64) : Cpu := { s with reg := fun x => if x = r then v else s.reg x }

/-- The address `o(b)`. -/
def addr (s : Cpu) (o : Nat) (b : Reg) : Nat := (s.reg b + BitVec.ofNat 64 o).toNat

/-- Eight bytes from memory. -/
def fetch (s : Cpu) (a : Nat) : Res (BitVec 64) := do
  let l ← s.mem.loadBytes a 8
  pure (BitVec.ofNat 64 (bytesNat l))

end Cpu

/-- The processor on straight code: the address control goes to and the state there.  The number is how many
instructions a jump has still to skip; code that ends without `ret` or `jmp` runs into the unknown. -/
def execute : List Instr → Nat → Cpu → Res (BitVec 64 × Cpu)
  | [], _, _ => .ub
  | _ :: c, k + 1, s => execute c k s
  | .mov a d :: c, 0, s => execute c 0 (s.set d (s.reg a))
  | .load o b d :: c, 0, s => do
    let v ← s.fetch (s.addr o b)
    execute c 0 (s.set d v)
  | .store a o b :: c, 0, s => do
    let m ← s.mem.storeBytes (s.addr o b) (natBytes 8 (s.reg a).toNat)
    execute c 0 { s with mem := m }
  | .lea o b d :: c, 0, s => execute c 0 (s.set d (s.reg b + BitVec.ofNat 64 o))
  | .test r :: c, 0, s => execute c 0 { s with zf := s.reg r == 0 }
  | .jnz k :: c, 0, s => if s.zf then execute c 0 s else execute c k s
  | .inc r :: c, 0, s => execute c 0 { s.set r (s.reg r + 1) with zf := s.reg r + 1 == 0 }
  | .xor r :: c, 0, s => execute c 0 { s.set r 0 with zf := true }
  | .ret :: _, 0, s => do
    let v ← s.fetch (s.addr 0 .rsp)
    pure (v, s.set .rsp (s.reg .rsp + 8))
  | .jmp r :: _, 0, s => pure (s.reg r, s)

/-- asm/jmp-x64.c:10-27 `longjmp`, `_longjmp`. -/
def longjmpCode : List Instr :=
  [.mov .rsi .rax, .test .rax, .jnz 1, .inc .rax,
   .load 0 .rdi .rbx, .load 8 .rdi .rbp, .load 16 .rdi .r12, .load 24 .rdi .r13, .load 32 .rdi .r14,
   .load 40 .rdi .r15, .load 48 .rdi .rdx, .mov .rdx .rsp, .load 56 .rdi .rdx, .jmp .rdx]

/-- asm/jmp-x64.c:29-45 `setjmp`, `_setjmp`. -/
def setjmpCode : List Instr :=
  [.store .rbx 0 .rdi, .store .rbp 8 .rdi, .store .r12 16 .rdi, .store .r13 24 .rdi, .store .r14 32 .rdi,
   .store .r15 40 .rdi, .lea 8 .rsp .rdx, .store .rdx 48 .rdi, .load 0 .rsp .rdx, .store .rdx 56 .rdi,
   .xor .rax, .ret]

/-- A call of `setjmp`: the return address is on the stack. -/
def setjmp (s : Cpu) : Res (BitVec 64 × Cpu) := execute setjmpCode 0 s

/-- A call of `longjmp`. -/
def longjmp (s : Cpu) : Res (BitVec 64 × Cpu) := execute longjmpCode 0 s

end Minilib

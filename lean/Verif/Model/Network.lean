import Verif.C.Word
import Verif.C.Int
/-
Models of /repo/src/network: htonl.c, htons.c, ntohl.h, macros.h, inet_aton.c, inet_ntoa.c,
ether_ntoa.c, gethostname.c.
-/

set_option autoImplicit false

namespace Minilib
open Mem

/-- src/network/htonl.c:5-14 `htonl`: six xor's on the bytes of the union (`char`; xor of `int`s cut to
8 bits is xor of the bytes). -/
def htonl (i : BitVec 32) : BitVec 32 :=
  match wordBytes i with
  | [c0, c1, c2, c3] =>
    let c0 := c0 ^^^ c3
    let c1 := c1 ^^^ c2
    let c3 := c3 ^^^ c0
    let c2 := c2 ^^^ c1
    let c0 := c0 ^^^ c3
    let c1 := c1 ^^^ c2
    bytesWord [c0, c1, c2, c3]
  | _ => 0

/-- src/network/ntohl.h:2 `#define ntohl(i) htonl(i)`. -/
def ntohl (i : BitVec 32) : BitVec 32 := htonl i

/-- src/network/htons.c:5-11 `htons`. -/
def htons (i : BitVec 16) : BitVec 16 :=
  let c0 := i.extractLsb' 0 8
  let c1 := i.extractLsb' 8 8
  let c0 := c0 ^^^ c1
  let c1 := c1 ^^^ c0
  let c0 := c0 ^^^ c1
  c1 ++ c0

/-- src/network/macros.h:2 `#define ntohs(i) htons(i)`. -/
def ntohs (i : BitVec 16) : BitVec 16 := htons i

/-- src/network/inet_aton.c:9-12: the loop over the digits of one number, `v` being `u.c[p]`
(`unsigned char`: `v*10+d` is cut to 8 bits).  Yields the position and the value. -/
def atonDigits (m : Mem) (pc : Nat) (v : Byte) : Res (Nat × Byte) := do
  let c ← m.load pc
  if 48 ≤ c.toInt ∧ c.toInt ≤ 57 then atonDigits m (pc + 1) (v * 10#8 + (c - 48#8))
  else pure (pc, v)
partial_fixpoint

/-- The four bytes `u.c` with entry `p` set to `v` (an index outside the array is undefined). -/
def setOctet (u : List Byte) (p : Nat) (v : Byte) : Res (List Byte) :=
  if p < u.length then .ok (u.set p v) else .ub

/-- src/network/inet_aton.c:8-17: the outer loop; `k` bounds the number of rounds still allowed by
`while (p<4)` (`p + k = 4`).  Yields the final `p` and `u.c`. -/
def atonLoop (m : Mem) : Nat → Nat → Nat → List Byte → Res (Nat × List Byte)
  | 0, _, p, u => .ok (p, u)
  | k + 1, pc, p, u => do
    let r ← atonDigits m pc (u.getD p 0#8)
    let u ← setOctet u p r.2
    let c ← m.load r.1
    if c = 0#8 then pure (p, u)
    else atonLoop m k (r.1 + 1) (p + 1) u

/-- src/network/inet_aton.c:19-22: with fewer than four numbers the last one is moved to the end. -/
def atonShort (p : Nat) (u : List Byte) : Res (List Byte) :=
  if p < 3 then do
    let u ← setOctet u 3 (u.getD p 0#8)
    setOctet u p 0#8
  else pure u

/-- src/network/inet_aton.c:3-26 `inet_aton`: the new memory and the return value. -/
def inet_aton (m : Mem) (s addr : Nat) : Res (Mem × Int) := do
  let r ← atonLoop m 4 s 0 [0#8, 0#8, 0#8, 0#8]
  let u ← atonShort r.1 r.2
  let m ← storeBytes m addr u
  pure (m, 1)

/-- src/network/inet_ntoa.c:23-26: `while (u.c[n] > 9) { u.c[n] -= 10; *p += 1; }`. -/
def ntoaTens (m : Mem) (p : Nat) (c : Byte) : Res (Mem × Byte) :=
  if c.toNat > 9 then do
    let b ← m.load p
    let m ← m.store p (b + 1#8)
    ntoaTens m p (c - 10#8)
  else pure (m, c)
partial_fixpoint

/-- src/network/inet_ntoa.c:14-21: the hundreds; yields memory, position and the remaining value. -/
def ntoaHundreds (m : Mem) (p : Nat) (c : Byte) : Res (Mem × Nat × Byte) :=
  if c.toNat > 199 then do
    let m ← m.store p 50#8
    pure (m, p + 1, c - 200#8)
  else if c.toNat > 99 then do
    let m ← m.store p 49#8
    pure (m, p + 1, c - 100#8)
  else pure (m, p, c)

/-- src/network/inet_ntoa.c:13-28: the digits before the last one. -/
def ntoaLead (m : Mem) (p : Nat) (c : Byte) : Res (Mem × Nat × Byte) :=
  if c.toNat > 9 then do
    let r ← ntoaHundreds m p c
    let m ← r.1.store r.2.1 48#8
    let t ← ntoaTens m r.2.1 r.2.2
    pure (t.1, r.2.1 + 1, t.2)
  else pure (m, p, c)

/-- src/network/inet_ntoa.c:11-33: the loop over the bytes of the address; `p` is the pointer after
`p++`.  (The code starts with the pointer one below the buffer.)  Yields the position of the last
'.'. -/
def ntoaLoop (m : Mem) (p : Nat) : List Byte → Res (Mem × Nat)
  | [] => .ok (m, p)
  | c :: cs => do
    let r ← ntoaLead m p c
    let m ← r.1.store r.2.1 (48#8 + r.2.2)
    let m ← m.store (r.2.1 + 1) 46#8
    ntoaLoop m (r.2.1 + 2) cs

/-- src/network/inet_ntoa.c:7-37 `inet_ntoa`; `buf` is `mlgl->inet_ntoa_addr`, `a` the four bytes of
the address in memory order. -/
def inet_ntoa (m : Mem) (buf : Nat) (a : BitVec 32) : Res (Mem × Nat) := do
  let r ← ntoaLoop m buf (wordBytes a)
  let m ← r.1.store (r.2 - 1) 0#8
  pure (m, buf)

/-- src/network/ether_ntoa.c:4-5: the table. -/
def etherTable : List Byte :=
  [48#8, 49#8, 50#8, 51#8, 52#8, 53#8, 54#8, 55#8, 56#8, 57#8, 97#8, 98#8, 99#8, 100#8, 101#8, 102#8]

/-- src/network/ether_ntoa.c:7-11: the loop over the six octets. -/
def etherLoop (m : Mem) (buf : Nat) : Nat → List Byte → Res Mem
  | _, [] => .ok m
  | i, o :: os => do
    let m ← m.store (buf + i * 3) (etherTable.getD (o &&& 15#8).toNat 0#8)
    let m ← m.store (buf + i * 3 + 1) (etherTable.getD ((o >>> 4) &&& 15#8).toNat 0#8)
    let m ← m.store (buf + i * 3 + 2) 58#8
    etherLoop m buf (i + 1) os

/-- src/network/ether_ntoa.c:3-15 `ether_ntoa`; `buf` is `mlgl->ether_ntoa_addr`. -/
def ether_ntoa (m : Mem) (buf : Nat) (e : List Byte) : Res (Mem × Nat) := do
  let m ← etherLoop m buf 0 e
  let m ← m.store (buf + 17) 0#8
  pure (m, buf)

/-- src/network/gethostname.c:10: `for (i=0; i<len && (name[i] = u.nodename[i]); i++);`, the
remaining bytes of `u.nodename` given as a list (running past it is undefined). -/
def hostLoop (m : Mem) (name i : Nat) (len : Int) : List Byte → Res (Mem × Nat)
  | [] => if (i : Int) < len then .ub else .ok (m, i)
  | b :: l =>
    if (i : Int) < len then do
      let m ← m.store (name + i) b
      if b = 0#8 then pure (m, i) else hostLoop m name (i + 1) len l
    else pure (m, i)

/-- src/network/gethostname.c:8: `if (len > sizeof(u.nodename)) len = sizeof(u.nodename);` — an
unsigned comparison, which also catches negative `len`. -/
def hostLen (len : Int) : Int := if len < 0 ∨ 65 < len then 65 else len

/-- src/network/gethostname.c:4-14 `gethostname`; `ret` and `node` are what uname(2) returned and
stored in `u.nodename` (65 bytes). -/
def gethostname (m : Mem) (name : Nat) (len : Int) (ret : Int) (node : List Byte) : Res (Mem × Int) :=
  if ret = 0 then do
    let r ← hostLoop m name 0 (hostLen len) node
    if r.2 ≠ 0 ∧ (r.2 : Int) = hostLen len then do
      let m ← r.1.store (name + r.2 - 1) 0#8
      pure (m, ret)
    else pure (r.1, ret)
  else pure (m, ret)

end Minilib

import Verif.C.Mem
/-
Models of /repo/headers/common/endian.h.
-/

set_option autoImplicit false

namespace Minilib

/-- headers/common/endian.h:17-20 `__bswap16`; the operand is promoted to `int`, the result cut to 16 bits. -/
def bswap16 (x : BitVec 16) : BitVec 16 :=
  let i : BitVec 32 := x.setWidth 32
  ((i <<< 8) ||| (i >>> 8)).setWidth 16

/-- headers/common/endian.h:22-25 `__bswap32`. -/
def bswap32 (x : BitVec 32) : BitVec 32 :=
  (x >>> 24) ||| ((x >>> 8) &&& 0xff00#32) ||| ((x <<< 8) &&& 0xff0000#32) ||| (x <<< 24)

/-- headers/common/endian.h:27-30 `__bswap64`; `+ 0ULL` widens the first operand to 64 bits, `|` the second. -/
def bswap64 (x : BitVec 64) : BitVec 64 :=
  (((bswap32 (x.setWidth 32)).setWidth 64 + 0#64) <<< 32) ||| (bswap32 ((x >>> 32).setWidth 32)).setWidth 64

/-- headers/common/endian.h:5-6 `__LITTLE_ENDIAN`. -/
def littleEndian : Nat := 1234

/-- headers/common/endian.h:32 `#if __BYTE_ORDER == __LITTLE_ENDIAN`: no header of the library defines `__BYTE_ORDER` (the compiler predefines
`__BYTE_ORDER__`), and an identifier that is no macro counts as 0.  The argument is the value of `__BYTE_ORDER`. -/
def swapsForBig (byteOrder : Nat) : Bool := byteOrder == littleEndian

/-- The value of `__BYTE_ORDER` in headers/common/endian.h:32: not defined. -/
def byteOrderHere : Nat := 0

/-- headers/common/endian.h:33-35, 52-54 `htobe16`, `be16toh`, `betoh16`. -/
def htobe16 (byteOrder : Nat) (x : BitVec 16) : BitVec 16 := if swapsForBig byteOrder then bswap16 x else x

/-- headers/common/endian.h:36-38, 55-57 `htobe32`, `be32toh`, `betoh32`. -/
def htobe32 (byteOrder : Nat) (x : BitVec 32) : BitVec 32 := if swapsForBig byteOrder then bswap32 x else x

/-- headers/common/endian.h:39-41, 58-60 `htobe64`, `be64toh`, `betoh64`. -/
def htobe64 (byteOrder : Nat) (x : BitVec 64) : BitVec 64 := if swapsForBig byteOrder then bswap64 x else x

/-- headers/common/endian.h:42-44, 61-63 `htole16`, `le16toh`, `letoh16`. -/
def htole16 (byteOrder : Nat) (x : BitVec 16) : BitVec 16 := if swapsForBig byteOrder then x else bswap16 x

/-- headers/common/endian.h:45-47, 64-66 `htole32`, `le32toh`, `letoh32`. -/
def htole32 (byteOrder : Nat) (x : BitVec 32) : BitVec 32 := if swapsForBig byteOrder then x else bswap32 x

/-- headers/common/endian.h:48-50, 67-69 `htole64`, `le64toh`, `letoh64`. -/
def htole64 (byteOrder : Nat) (x : BitVec 64) : BitVec 64 := if swapsForBig byteOrder then x else bswap64 x

end Minilib

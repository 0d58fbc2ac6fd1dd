import Verif.C.Mem
/-
Macros that put words together and take them apart: /repo/headers/common/elf.h, /repo/include/network.h, /repo/headers/linux_x64/sys/ttydefaults.h.
-/

set_option autoImplicit false

namespace Minilib

/-! ### headers/common/elf.h (tools/elf11.h has the same text) -/

/-- headers/common/elf.h:484, 488 `ELF32_ST_BIND`, `ELF64_ST_BIND`: `val` is an int, cast to unsigned char. -/
def ELF_ST_BIND (val : BitVec 32) : BitVec 32 := (val.setWidth 8).setWidth 32 >>> 4
/-- headers/common/elf.h:485, 489 `ELF32_ST_TYPE`, `ELF64_ST_TYPE`. -/
def ELF_ST_TYPE (val : BitVec 32) : BitVec 32 := val &&& 0xf#32
/-- headers/common/elf.h:486, 490 `ELF32_ST_INFO`, `ELF64_ST_INFO`, of ints. -/
def ELF_ST_INFO (bind type : BitVec 32) : BitVec 32 := (bind <<< 4) + (type &&& 0xf#32)
/-- headers/common/elf.h:518-519 `ELF32_ST_VISIBILITY`, `ELF64_ST_VISIBILITY`. -/
def ELF_ST_VISIBILITY (o : BitVec 32) : BitVec 32 := o &&& 0x03#32

/-- headers/common/elf.h:555 `ELF32_R_SYM` of an Elf32_Word. -/
def ELF32_R_SYM (val : BitVec 32) : BitVec 32 := val >>> 8
/-- headers/common/elf.h:556 `ELF32_R_TYPE`. -/
def ELF32_R_TYPE (val : BitVec 32) : BitVec 32 := val &&& 0xff#32
/-- headers/common/elf.h:557 `ELF32_R_INFO`. -/
def ELF32_R_INFO (sym type : BitVec 32) : BitVec 32 := (sym <<< 8) + (type &&& 0xff#32)

/-- headers/common/elf.h:559 `ELF64_R_SYM` of an Elf64_Xword. -/
def ELF64_R_SYM (i : BitVec 64) : BitVec 64 := i >>> 32
/-- headers/common/elf.h:560 `ELF64_R_TYPE`. -/
def ELF64_R_TYPE (i : BitVec 64) : BitVec 64 := i &&& 0xffffffff#64
/-- headers/common/elf.h:561 `ELF64_R_INFO`; `type` is an unsigned 32 bit number, `sym` is cast to Elf64_Xword. -/
def ELF64_R_INFO (sym : BitVec 64) (type : BitVec 32) : BitVec 64 := (sym <<< 32) + type.setWidth 64

/-- headers/common/elf.h:765 `DT_VALTAGIDX`. -/
def DT_VALTAGIDX (tag : Int) : Int := 0x6ffffdff - tag
/-- headers/common/elf.h:781 `DT_ADDRTAGIDX`. -/
def DT_ADDRTAGIDX (tag : Int) : Int := 0x6ffffeff - tag
/-- headers/common/elf.h:799 `DT_VERSIONTAGIDX`. -/
def DT_VERSIONTAGIDX (tag : Int) : Int := 0x6fffffff - tag
/-- headers/common/elf.h:806 `DT_EXTRATAGIDX`; the shift to the left wraps, as GCC does it. -/
def DT_EXTRATAGIDX (tag : BitVec 32) : BitVec 32 := -((tag <<< 1).sshiftRight 1) - 1#32

/-- headers/common/elf.h:708-744, tags of the first group, below DT_NUM. -/
def dtPlain : List (String × Int) :=
  [("DT_NULL", 0), ("DT_NEEDED", 1), ("DT_PLTRELSZ", 2), ("DT_PLTGOT", 3), ("DT_HASH", 4), ("DT_STRTAB", 5),
   ("DT_SYMTAB", 6), ("DT_RELA", 7), ("DT_RELASZ", 8), ("DT_RELAENT", 9), ("DT_STRSZ", 10), ("DT_SYMENT", 11),
   ("DT_INIT", 12), ("DT_FINI", 13), ("DT_SONAME", 14), ("DT_RPATH", 15), ("DT_SYMBOLIC", 16), ("DT_REL", 17),
   ("DT_RELSZ", 18), ("DT_RELENT", 19), ("DT_PLTREL", 20), ("DT_DEBUG", 21), ("DT_TEXTREL", 22), ("DT_JMPREL", 23),
   ("DT_BIND_NOW", 24), ("DT_INIT_ARRAY", 25), ("DT_FINI_ARRAY", 26), ("DT_INIT_ARRAYSZ", 27),
   ("DT_FINI_ARRAYSZ", 28), ("DT_RUNPATH", 29), ("DT_FLAGS", 30), ("DT_PREINIT_ARRAY", 32),
   ("DT_PREINIT_ARRAYSZ", 33), ("DT_SYMTAB_SHNDX", 34)]
/-- headers/common/elf.h:752-763, tags of values. -/
def dtVal : List (String × Int) :=
  [("DT_GNU_PRELINKED", 0x6ffffdf5), ("DT_GNU_CONFLICTSZ", 0x6ffffdf6), ("DT_GNU_LIBLISTSZ", 0x6ffffdf7),
   ("DT_CHECKSUM", 0x6ffffdf8), ("DT_PLTPADSZ", 0x6ffffdf9), ("DT_MOVEENT", 0x6ffffdfa), ("DT_MOVESZ", 0x6ffffdfb),
   ("DT_FEATURE_1", 0x6ffffdfc), ("DT_POSFLAG_1", 0x6ffffdfd), ("DT_SYMINSZ", 0x6ffffdfe), ("DT_SYMINENT", 0x6ffffdff)]
/-- headers/common/elf.h:769-779, tags of addresses. -/
def dtAddr : List (String × Int) :=
  [("DT_GNU_HASH", 0x6ffffef5), ("DT_TLSDESC_PLT", 0x6ffffef6), ("DT_TLSDESC_GOT", 0x6ffffef7),
   ("DT_GNU_CONFLICT", 0x6ffffef8), ("DT_GNU_LIBLIST", 0x6ffffef9), ("DT_CONFIG", 0x6ffffefa),
   ("DT_DEPAUDIT", 0x6ffffefb), ("DT_AUDIT", 0x6ffffefc), ("DT_PLTPAD", 0x6ffffefd), ("DT_MOVETAB", 0x6ffffefe),
   ("DT_SYMINFO", 0x6ffffeff)]
/-- headers/common/elf.h:786-798, tags of versions. -/
def dtVersion : List (String × Int) :=
  [("DT_VERSYM", 0x6ffffff0), ("DT_RELACOUNT", 0x6ffffff9), ("DT_RELCOUNT", 0x6ffffffa), ("DT_FLAGS_1", 0x6ffffffb),
   ("DT_VERDEF", 0x6ffffffc), ("DT_VERDEFNUM", 0x6ffffffd), ("DT_VERNEED", 0x6ffffffe), ("DT_VERNEEDNUM", 0x6fffffff)]
/-- headers/common/elf.h:804-805, further tags. -/
def dtExtra : List (String × Int) := [("DT_AUXILIARY", 0x7ffffffd), ("DT_FILTER", 0x7fffffff)]

/-- headers/common/elf.h:744, 766, 782, 800, 807: the sizes of the groups. -/
def DT_NUM : Nat := 35
def DT_VALNUM : Nat := 12
def DT_ADDRNUM : Nat := 11
def DT_VERSIONTAGNUM : Nat := 16
def DT_EXTRANUM : Nat := 3

/-! ### include/network.h -/

/-- include/network.h:95-96 `IPTOS_ECN` of an octet. -/
def IPTOS_ECN (x : BitVec 8) : BitVec 8 := x &&& 0x03#8
/-- include/network.h:102-103 `IPTOS_DSCP`. -/
def IPTOS_DSCP (x : BitVec 8) : BitVec 8 := x &&& 0xfc#8
/-- include/network.h:118-119 `IPTOS_CLASS`. -/
def IPTOS_CLASS (x : BitVec 8) : BitVec 8 := x &&& 0xe0#8
/-- include/network.h:130-131 `IPTOS_TOS`; line 690 `RT_TOS` is the same. -/
def IPTOS_TOS (x : BitVec 8) : BitVec 8 := x &&& 0x1e#8
/-- include/network.h:138-139 `IPTOS_PREC`. -/
def IPTOS_PREC (x : BitVec 8) : BitVec 8 := x &&& 0xe0#8
/-- include/network.h:104-116, the code points of assured (class and drop precedence) and expedited forwarding. -/
def dscpAF : List (Nat × Nat × BitVec 8) :=
  [(1, 1, 0x28#8), (1, 2, 0x30#8), (1, 3, 0x38#8), (2, 1, 0x48#8), (2, 2, 0x50#8), (2, 3, 0x58#8),
   (3, 1, 0x68#8), (3, 2, 0x70#8), (3, 3, 0x78#8), (4, 1, 0x88#8), (4, 2, 0x90#8), (4, 3, 0x98#8)]
def dscpEF : BitVec 8 := 0xb8#8
/-- include/network.h:120-127, the class selectors. -/
def dscpCS : List (BitVec 8) := [0x00#8, 0x20#8, 0x40#8, 0x60#8, 0x80#8, 0xa0#8, 0xc0#8, 0xe0#8]

/-- include/network.h:153 `IPOPT_COPIED`. -/
def IPOPT_COPIED (o : BitVec 8) : BitVec 8 := o &&& 0x80#8
/-- include/network.h:154 `IPOPT_CLASS`. -/
def IPOPT_CLASS (o : BitVec 8) : BitVec 8 := o &&& 0x60#8
/-- include/network.h:155 `IPOPT_NUMBER`. -/
def IPOPT_NUMBER (o : BitVec 8) : BitVec 8 := o &&& 0x1f#8
/-- include/network.h:163-177, the options. -/
def ipOptions : List (String × BitVec 8) :=
  [("IPOPT_EOL", 0#8), ("IPOPT_NOP", 1#8), ("IPOPT_RR", 7#8), ("IPOPT_TS", 68#8), ("IPOPT_SECURITY", 130#8),
   ("IPOPT_LSRR", 131#8), ("IPOPT_SATID", 136#8), ("IPOPT_SSRR", 137#8), ("IPOPT_RA", 148#8)]

/-! ### headers/linux_x64/sys/ttydefaults.h -/

/-- headers/linux_x64/sys/ttydefaults.h:7 `CTRL`, of a character. -/
def CTRL (x : BitVec 32) : BitVec 32 := x &&& 0o37#32

end Minilib

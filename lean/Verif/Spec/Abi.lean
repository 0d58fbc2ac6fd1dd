import Verif.C.Word
/-
The records Linux exchanges with processes on amd64, as byte offsets: what the kernel (and, for packet headers, the network) defines, independent of any C
declaration.  Paths name the items as the library's headers do.
-/

set_option autoImplicit false

namespace Spec

/-- One step to an item: a name or an index. -/
inductive Step
  | f (name : String)
  | i (n : Nat)
deriving DecidableEq, Repr

/-- An item of a record: its path, byte offset and width in bytes. -/
structure Slot where
  path : List Step
  off : Nat
  width : Nat
deriving DecidableEq, Repr

/-- A record: its length and its items. -/
structure Record where
  size : Nat
  slots : List Slot

/-- A single item. -/
def it (x : String) (off width : Nat) : List Slot := [⟨[.f x], off, width⟩]

/-- `n` items of the same width. -/
def its (x : String) (off width n : Nat) : List Slot := (List.range n).map fun i => ⟨[.f x, .i i], off + i * width, width⟩

/-- A record inside of a record. -/
def sub (x : String) (off : Nat) (l : List Slot) : List Slot := l.map fun s => ⟨.f x :: s.path, off + s.off, s.width⟩

/-- Items of eight bytes one after the other. -/
def longs (off : Nat) : List String → List Slot
  | [] => []
  | x :: r => it x off 8 ++ longs (off + 8) r

/-- Seconds and fractions. -/
def timevalR : Record := ⟨16, it "tv_sec" 0 8 ++ it "tv_usec" 8 8⟩
def timespecR : Record := ⟨16, it "tv_sec" 0 8 ++ it "tv_nsec" 8 8⟩
def itimervalR : Record := ⟨32, sub "it_interval" 0 timevalR.slots ++ sub "it_value" 16 timevalR.slots⟩
def itimerspecR : Record := ⟨32, sub "it_interval" 0 timespecR.slots ++ sub "it_value" 16 timespecR.slots⟩
def iovecR : Record := ⟨16, it "iov_base" 0 8 ++ it "iov_len" 8 8⟩
def utimbufR : Record := ⟨16, it "actime" 0 8 ++ it "modtime" 8 8⟩
def timezoneR : Record := ⟨8, it "tz_minuteswest" 0 4 ++ it "tz_dsttime" 4 4⟩
/-- `__kernel_fd_set`. -/
def fdsetR : Record := ⟨128, its "fds_bits" 0 8 16⟩
/-- `struct stat` of stat, fstat, lstat. -/
def statR : Record := ⟨144, it "st_dev" 0 8 ++ it "st_ino" 8 8 ++ it "st_nlink" 16 8 ++ it "st_mode" 24 4 ++ it "st_uid" 28 4 ++ it "st_gid" 32 4 ++
  it "__pad0" 36 4 ++ it "st_rdev" 40 8 ++ it "st_size" 48 8 ++ it "st_blksize" 56 8 ++ it "st_blocks" 64 8 ++ sub "st_atime" 72 timespecR.slots ++
  sub "st_mtime" 88 timespecR.slots ++ sub "st_ctime" 104 timespecR.slots ++ its "__unused" 120 8 3⟩
def winsizeR : Record := ⟨8, it "ws_row" 0 2 ++ it "ws_col" 2 2 ++ it "ws_xpixel" 4 2 ++ it "ws_ypixel" 6 2⟩
/-- `struct termios` of TCGETS and TCSETS: 19 control characters, no speeds. -/
def termiosR : Record := ⟨36, it "c_iflag" 0 4 ++ it "c_oflag" 4 4 ++ it "c_cflag" 8 4 ++ it "c_lflag" 12 4 ++ it "c_line" 16 1 ++ its "c_cc" 17 1 19⟩
def termioR : Record := ⟨18, it "c_iflag" 0 2 ++ it "c_oflag" 2 2 ++ it "c_cflag" 4 2 ++ it "c_lflag" 6 2 ++ it "c_line" 8 1 ++ its "c_cc" 9 1 8⟩
def pollfdR : Record := ⟨8, it "fd" 0 4 ++ it "events" 4 2 ++ it "revents" 6 2⟩
/-- `struct epoll_event`, packed on this machine. -/
def epollEventR : Record := ⟨12, it "events" 0 4 ++ sub "data" 4 (it "u64" 0 8)⟩
def tmsR : Record := ⟨32, longs 0 ["tms_utime", "tms_stime", "tms_cutime", "tms_cstime"]⟩
/-- `struct new_utsname`. -/
def utsnameR : Record := ⟨390, its "sysname" 0 1 65 ++ its "nodename" 65 1 65 ++ its "release" 130 1 65 ++ its "version" 195 1 65 ++ its "machine" 260 1 65 ++
  its "domainname" 325 1 65⟩
def rusageR : Record := ⟨144, sub "ru_utime" 0 timevalR.slots ++ sub "ru_stime" 16 timevalR.slots ++ longs 32 ["ru_maxrss", "ru_ixrss", "ru_idrss",
  "ru_isrss", "ru_minflt", "ru_majflt", "ru_nswap", "ru_inblock", "ru_oublock", "ru_msgsnd", "ru_msgrcv", "ru_nsignals", "ru_nvcsw", "ru_nivcsw"]⟩
def rlimitR : Record := ⟨16, it "rlim_cur" 0 8 ++ it "rlim_max" 8 8⟩
def inotifyR : Record := ⟨16, it "wd" 0 4 ++ it "mask" 4 4 ++ it "cookie" 8 4 ++ it "len" 12 4⟩
/-- `struct sigaction` of rt_sigaction. -/
def sigactionR : Record := ⟨32, it "sa_handler" 0 8 ++ it "sa_flags" 8 8 ++ it "restorer" 16 8 ++ sub "sa_mask" 24 (it "sig" 0 8)⟩

/-- The head of `siginfo_t`. -/
def siHead : List Slot := it "si_signo" 0 4 ++ it "si_errno" 4 4 ++ it "si_code" 8 4
/-- `siginfo_t` from kill. -/
def siKillR : Record := ⟨128, siHead ++ sub "_sifields" 16 (sub "_kill" 0 (it "_pid" 0 4 ++ it "_uid" 4 4))⟩
/-- `siginfo_t` from a POSIX timer. -/
def siTimerR : Record := ⟨128, siHead ++ sub "_sifields" 16 (sub "_timer" 0 (it "_timer1" 0 4 ++ it "_timer2" 4 4))⟩
/-- `siginfo_t` from sigqueue. -/
def siRtR : Record := ⟨128, siHead ++ sub "_sifields" 16 (sub "_rt" 0 (it "_pid" 0 4 ++ it "_uid" 4 4 ++ sub "_sigval" 8 (it "sival_ptr" 0 8)))⟩
/-- `siginfo_t` from a child. -/
def siChldR : Record := ⟨128, siHead ++ sub "_sifields" 16 (sub "_sigchld" 0 (it "_pid" 0 4 ++ it "_uid" 4 4 ++ it "_status" 8 4 ++ it "_utime" 16 8 ++
  it "_stime" 24 8))⟩
/-- `siginfo_t` from a fault. -/
def siFaultR : Record := ⟨128, siHead ++ sub "_sifields" 16 (sub "_sigfault" 0 (it "_addr" 0 8))⟩
/-- `siginfo_t` from SIGPOLL. -/
def siPollR : Record := ⟨128, siHead ++ sub "_sifields" 16 (sub "_sigpoll" 0 (it "_band" 0 8 ++ it "_fd" 8 4))⟩

def prctlMmMapR : Record := ⟨104, longs 0 ["start_code", "end_code", "start_data", "end_data", "start_brk", "brk", "start_stack", "arg_start", "arg_end",
  "env_start", "env_end", "auxv"] ++ it "auxv_size" 96 4 ++ it "exe_fd" 100 4⟩
def seccompDataR : Record := ⟨64, it "nr" 0 4 ++ it "arch" 4 4 ++ it "instruction_pointer" 8 8 ++ its "args" 16 8 6⟩
def seccompNotifR : Record := ⟨80, it "id" 0 8 ++ it "pid" 8 4 ++ it "flags" 12 4 ++ sub "data" 16 seccompDataR.slots⟩
def seccompRespR : Record := ⟨24, it "id" 0 8 ++ it "val" 8 8 ++ it "error" 16 4 ++ it "flags" 20 4⟩
def sockaddrR : Record := ⟨16, it "sa_family" 0 2 ++ its "sa_data" 2 1 14⟩
def sockaddrInR : Record := ⟨16, it "sin_family" 0 2 ++ it "sin_port" 2 2 ++ sub "sin_addr" 4 (it "s_addr" 0 4) ++ its "sin_zero" 8 1 8⟩
def sockaddrLlR : Record := ⟨20, it "sll_family" 0 2 ++ it "sll_protocol" 2 2 ++ it "sll_ifindex" 4 4 ++ it "sll_hatype" 8 2 ++ it "sll_pkttype" 10 1 ++
  it "sll_halen" 11 1 ++ its "sll_addr" 12 1 8⟩
def packetMreqR : Record := ⟨16, it "mr_ifindex" 0 4 ++ it "mr_type" 4 2 ++ it "mr_alen" 6 2 ++ its "mr_address" 8 1 8⟩

/-- The name in a `struct ifreq`. -/
def ifName : List Slot := sub "ifr_ifrn" 0 (its "ifrn_name" 0 1 16)
/-- `struct ifreq` with an address in the member `x`. -/
def ifAddrR (x : String) : Record := ⟨40, ifName ++ sub "ifr_ifru" 16 (sub x 0 sockaddrR.slots)⟩
/-- `struct ifreq` with flags. -/
def ifFlagsR : Record := ⟨40, ifName ++ sub "ifr_ifru" 16 (it "ifru_flags" 0 2)⟩
/-- `struct ifreq` with a number in the member `x`. -/
def ifIntR (x : String) : Record := ⟨40, ifName ++ sub "ifr_ifru" 16 (it x 0 4)⟩
/-- `struct ifreq` with a device map. -/
def ifMapR : Record := ⟨40, ifName ++ sub "ifr_ifru" 16 (sub "ifru_map" 0 (it "mem_start" 0 8 ++ it "mem_end" 8 8 ++ it "base_addr" 16 2 ++ it "irq" 18 1 ++
  it "dma" 19 1 ++ it "port" 20 1))⟩
/-- `struct ifreq` with a second name in the member `x`. -/
def ifNameR (x : String) : Record := ⟨40, ifName ++ sub "ifr_ifru" 16 (its x 0 1 16)⟩
/-- `struct ifreq` with a pointer. -/
def ifDataR : Record := ⟨40, ifName ++ sub "ifr_ifru" 16 (it "ifru_data" 0 8)⟩

/-- `struct rtentry`; what the kernel calls rt_pad4 (a pointer) is rt_tos, rt_class and rt_pad4 in the header. -/
def rtentryR : Record := ⟨120, it "rt_pad1" 0 8 ++ sub "rt_dst" 8 sockaddrR.slots ++ sub "rt_gateway" 24 sockaddrR.slots ++
  sub "rt_genmask" 40 sockaddrR.slots ++ it "rt_flags" 56 2 ++ it "rt_pad2" 58 2 ++ it "rt_pad3" 64 8 ++ it "rt_metric" 80 2 ++ it "rt_dev" 88 8 ++
  it "rt_mtu" 96 8 ++ it "rt_window" 104 8 ++ it "rt_irtt" 112 2⟩
/-- `struct in6_rtmsg`. -/
def in6RtmsgR : Record :=
  let a := sub "__in6_union" 0 (its "__s6_addr" 0 1 16)
  ⟨80, sub "rtmsg_dst" 0 a ++ sub "rtmsg_src" 16 a ++ sub "rtmsg_gateway" 32 a ++ it "rtmsg_type" 48 4 ++ it "rtmsg_dst_len" 52 2 ++
    it "rtmsg_src_len" 54 2 ++ it "rtmsg_metric" 56 4 ++ it "rtmsg_info" 64 8 ++ it "rtmsg_flags" 72 4 ++ it "rtmsg_ifindex" 76 4⟩
/-- The header of a UDP packet (RFC 768). -/
def udphdrR : Record := ⟨8, it "uh_sport" 0 2 ++ it "uh_dport" 2 2 ++ it "uh_ulen" 4 2 ++ it "uh_sum" 6 2⟩
/-- The header of an Ethernet frame. -/
def ethhdrR : Record := ⟨14, its "h_dest" 0 1 6 ++ its "h_source" 6 1 6 ++ it "h_proto" 12 2⟩
/-- The header of an IP packet after its first byte (RFC 791). -/
def iphdrR : Record := ⟨20, it "tos" 1 1 ++ it "tot_len" 2 2 ++ it "id" 4 2 ++ it "frag_off" 6 2 ++ it "ttl" 8 1 ++ it "protocol" 9 1 ++ it "check" 10 2 ++
  it "saddr" 12 4 ++ it "daddr" 16 4⟩
/-- The same with the names of BSD. -/
def ipR : Record := ⟨20, it "ip_tos" 1 1 ++ it "ip_len" 2 2 ++ it "ip_id" 4 2 ++ it "ip_off" 6 2 ++ it "ip_ttl" 8 1 ++ it "ip_p" 9 1 ++ it "ip_sum" 10 2 ++
  sub "ip_src" 12 (it "s_addr" 0 4) ++ sub "ip_dst" 16 (it "s_addr" 0 4)⟩

/-- The number `v` in `n` bytes, least significant first. -/
def le : Nat → Nat → List Byte
  | 0, _ => []
  | n + 1, v => BitVec.ofNat 8 v :: le n (v / 256)

/-- The bytes at `p` are the record with the values `v`. -/
def Record.At (r : Record) (m : Mem) (p : Nat) (v : List Step → Nat) : Prop := ∀ s ∈ r.slots, m.Holds (p + s.off) (le s.width (v s.path))

end Spec

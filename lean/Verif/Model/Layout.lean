import Verif.Model.Userdb
/-
The structures of the headers that are exchanged with the kernel, and where the compiler places their members (System V ABI, amd64): every scalar at a multiple
of its own size, a structure at a multiple of the largest alignment of its members and padded to a multiple of it, the members of a union all at its start, the
members of a packed structure without gaps, bit-fields from the least significant bit on and not across the border of a unit of their declared type.

The declarations below are transcribed from the headers with their types replaced by their sizes: char 1, short 2, int 4, long, pointers and `long long` 8
(headers/common/bits/alltypes.h:48-98, headers/linux_x64/bits/types.h:5-23, include/network.h:361-362).  The macros of the same headers on file modes, directory entries and
ioctl numbers are at the end.
-/

set_option autoImplicit false

namespace Minilib

/-- One step of a path to a member: a name or an array index. -/
inductive Sel
  | f (name : String)
  | i (n : Nat)
deriving DecidableEq, Repr

mutual
/-- A declared type; sizes in bytes.  (Compiler.) -/
inductive CDecl
  | scal (size : Nat)
  | arr (n : Nat) (t : CDecl)
  | struct (fs : CFields)
  | union (fs : CFields)
  | packed (fs : CFields)
/-- The members of a structure or union: ordinary ones, and bit-fields of `width` bits of a type with `unit` bytes.  (Compiler.) -/
inductive CFields
  | nil
  | field (name : String) (t : CDecl) (rest : CFields)
  | bits (name : String) (unit width : Nat) (rest : CFields)
end

/-- The next multiple of `a`.  (Compiler.) -/
def roundUp (x a : Nat) : Nat := (x + a - 1) / a * a

/-- Where a bit-field of `w` bits starts that follows bit `pos`: not across a border between units of `u` bits.  (Compiler.) -/
def bitPos (pos u w : Nat) : Nat := if pos / u = (pos + w - 1) / u then pos else roundUp pos u

mutual
/-- The alignment of a type, in bits.  (Compiler.) -/
def CDecl.align : CDecl → Nat
  | .scal s => 8 * s
  | .arr _ t => t.align
  | .struct fs => fs.align
  | .union fs => fs.align
  | .packed _ => 8
/-- The largest alignment of the members, in bits.  (Compiler.) -/
def CFields.align : CFields → Nat
  | .nil => 8
  | .field _ t r => max t.align r.align
  | .bits _ u _ r => max (8 * u) r.align
end

mutual
/-- The size of a type, in bits.  (Compiler.) -/
def CDecl.size : CDecl → Nat
  | .scal s => 8 * s
  | .arr n t => n * t.size
  | .struct fs => roundUp (fs.fin 0) fs.align
  | .union fs => roundUp fs.widest fs.align
  | .packed fs => roundUp (fs.tight 0) 8
/-- The end of the members that are placed one after the other from bit `pos` on.  (Compiler.) -/
def CFields.fin : CFields → Nat → Nat
  | .nil, pos => pos
  | .field _ t r, pos => r.fin (roundUp pos t.align + t.size)
  | .bits _ u w r, pos => r.fin (bitPos pos (8 * u) w + w)
/-- The size of the largest member.  (Compiler.) -/
def CFields.widest : CFields → Nat
  | .nil => 0
  | .field _ t r => max t.size r.widest
  | .bits _ _ w r => max w r.widest
/-- The end of the members without gaps.  (Compiler.) -/
def CFields.tight : CFields → Nat → Nat
  | .nil, pos => pos
  | .field _ t r, pos => r.tight (pos + t.size)
  | .bits _ _ w r, pos => r.tight (pos + w)
end

/-- A scalar inside of a type: its path, where it starts and its width in bits, and whether it is a bit-field.  (Compiler.) -/
structure Leaf where
  path : List Sel
  off : Nat
  width : Nat
deriving DecidableEq, Repr

mutual
/-- The scalars inside of a type that starts at bit `off`.  (Compiler.) -/
def CDecl.leaves : CDecl → List Sel → Nat → List Leaf
  | .scal s, path, off => [⟨path.reverse, off, 8 * s⟩]
  | .arr n t, path, off => (List.range n).flatMap fun i => t.leaves (.i i :: path) (off + i * t.size)
  | .struct fs, path, off => fs.leaves path off 0
  | .union fs, path, off => fs.unionLeaves path off
  | .packed fs, path, off => fs.tightLeaves path off 0
/-- The scalars of members placed one after the other.  (Compiler.) -/
def CFields.leaves : CFields → List Sel → Nat → Nat → List Leaf
  | .nil, _, _, _ => []
  | .field x t r, path, off, pos =>
    t.leaves (.f x :: path) (off + roundUp pos t.align) ++ r.leaves path off (roundUp pos t.align + t.size)
  | .bits x u w r, path, off, pos =>
    ⟨(Sel.f x :: path).reverse, off + bitPos pos (8 * u) w, w⟩ :: r.leaves path off (bitPos pos (8 * u) w + w)
/-- The scalars of members that all start at the same place.  (Compiler.) -/
def CFields.unionLeaves : CFields → List Sel → Nat → List Leaf
  | .nil, _, _ => []
  | .field x t r, path, off => t.leaves (.f x :: path) off ++ r.unionLeaves path off
  | .bits x _ w r, path, off => ⟨(Sel.f x :: path).reverse, off, w⟩ :: r.unionLeaves path off
/-- The scalars of members without gaps.  (Compiler.) -/
def CFields.tightLeaves : CFields → List Sel → Nat → Nat → List Leaf
  | .nil, _, _, _ => []
  | .field x t r, path, off, pos => t.leaves (.f x :: path) (off + pos) ++ r.tightLeaves path off (pos + t.size)
  | .bits x _ w r, path, off, pos => ⟨(Sel.f x :: path).reverse, off + pos, w⟩ :: r.tightLeaves path off (pos + w)
end

/-- `sizeof`.  (Compiler.) -/
def CDecl.sizeof (d : CDecl) : Nat := d.size / 8

/-- Where the member `x` starts, in bits, of members placed one after the other from bit `pos` on.  (Compiler.) -/
def CFields.offsetOf : CFields → String → Nat → Option Nat
  | .nil, _, _ => none
  | .field y t r, x, pos => if x = y then some (roundUp pos t.align) else r.offsetOf x (roundUp pos t.align + t.size)
  | .bits y u w r, x, pos => if x = y then some (bitPos pos (8 * u) w) else r.offsetOf x (bitPos pos (8 * u) w + w)

/-- `offsetof` for the members of a structure, in bytes.  (Compiler.) -/
def CDecl.offsetof : CDecl → String → Option Nat
  | .struct fs, x => (fs.offsetOf x 0).map (· / 8)
  | _, _ => none

/-- The scalar at a path.  (Compiler.) -/
def CDecl.leaf? (d : CDecl) (π : List Sel) : Option Leaf := (d.leaves [] 0).find? fun l => l.path = π

/-- The bytes a scalar at bit `off` with `w` bits touches: the first, and how many.  (Compiler.) -/
def Leaf.bytes (l : Leaf) : Nat × Nat := (l.off / 8, (l.off % 8 + l.width + 7) / 8)

/-- `p->π` as rvalue, as unsigned number.  A path that is no member does not compile (`ub` here).  (Compiler.) -/
def getMember (d : CDecl) (p : Nat) (π : List Sel) (m : Mem) : Res Nat :=
  match d.leaf? π with
  | none => .ub
  | some l => do
    let bs ← m.loadBytes (p + l.bytes.1) l.bytes.2
    pure (bytesNat bs / 2 ^ (l.off % 8) % 2 ^ l.width)

/-- `p->π = x`: the touched bytes are read, the bits of the member replaced and the bytes stored.  (Compiler.) -/
def setMember (d : CDecl) (p : Nat) (π : List Sel) (x : Nat) (m : Mem) : Res Mem :=
  match d.leaf? π with
  | none => .ub
  | some l => do
    let bs ← m.loadBytes (p + l.bytes.1) l.bytes.2
    let n := bytesNat bs
    let s := l.off % 8
    let n' := n % 2 ^ s + 2 ^ s * (x % 2 ^ l.width) + 2 ^ (s + l.width) * (n / 2 ^ (s + l.width))
    m.storeBytes (p + l.bytes.1) (natBytes l.bytes.2 n')

/-- Several assignments to members of the same object. -/
def setMembers (d : CDecl) (p : Nat) : List (List Sel × Nat) → Mem → Res Mem
  | [], m => pure m
  | (π, x) :: r, m => do
    let m ← setMember d p π x m
    setMembers d p r m

/-! ### The declarations -/

namespace Decl

/-- `char`, `uint8_t`, `cc_t`. -/
abbrev c : CDecl := .scal 1
/-- `short`, `uint16_t`, `sa_family_t`. -/
abbrev h : CDecl := .scal 2
/-- `int`, `uint32_t`, `mode_t`, `uid_t`, `pid_t`, `tcflag_t`. -/
abbrev w : CDecl := .scal 4
/-- `long`, `uint64_t`, `dev_t`, `ino_t`, `nlink_t`, `off_t`, `time_t`, `clock_t`, `size_t`, pointers. -/
abbrev l : CDecl := .scal 8

/-- Members from a list. -/
def fields : List (String × CDecl) → CFields
  | [] => .nil
  | (x, t) :: r => .field x t (fields r)

/-- A structure from a list of its members. -/
abbrev st (fs : List (String × CDecl)) : CDecl := .struct (fields fs)

/-- struct timeval: headers/common/bits/alltypes.h:10, include/globaldefs.h:211. -/
def timeval : CDecl := st [("tv_sec", l), ("tv_usec", l)]
/-- struct timespec: headers/common/bits/alltypes.h:84. -/
def timespec : CDecl := st [("tv_sec", l), ("tv_nsec", l)]
/-- struct itimerval: headers/common/bits/alltypes.h:18-21. -/
def itimerval : CDecl := st [("it_interval", timeval), ("it_value", timeval)]
/-- struct itimerspec: headers/common/time.h:27-30. -/
def itimerspec : CDecl := st [("it_interval", timespec), ("it_value", timespec)]
/-- struct iovec: headers/common/bits/alltypes.h:96. -/
def iovec : CDecl := st [("iov_base", l), ("iov_len", l)]
/-- struct utimbuf: include/globaldefs.h:86-89. -/
def utimbuf : CDecl := st [("actime", l), ("modtime", l)]
/-- struct timezone: include/globaldefs.h:213-216. -/
def timezone : CDecl := st [("tz_minuteswest", w), ("tz_dsttime", w)]
/-- fd_set: include/globaldefs.h:224-227 (1024 / 8 / 8 words). -/
def fdset : CDecl := st [("fds_bits", .arr 16 l)]
/-- struct stat: headers/common/bits/stat.h:57-77. -/
def stat : CDecl := st [("st_dev", l), ("st_ino", l), ("st_nlink", l), ("st_mode", w), ("st_uid", w), ("st_gid", w), ("__pad0", w), ("st_rdev", l),
  ("st_size", l), ("st_blksize", l), ("st_blocks", l), ("st_atime", timespec), ("st_mtime", timespec), ("st_ctime", timespec), ("__unused", .arr 3 l)]
/-- struct winsize: headers/common/bits/ioctl.h:99-104. -/
def winsize : CDecl := st [("ws_row", h), ("ws_col", h), ("ws_xpixel", h), ("ws_ypixel", h)]
/-- struct termios: include/termio.h:13-22. -/
def termios : CDecl := st [("c_iflag", w), ("c_oflag", w), ("c_cflag", w), ("c_lflag", w), ("c_line", c), ("c_cc", .arr 32 c), ("__c_ispeed", w),
  ("__c_ospeed", w)]
/-- struct termio: include/termio.h:26-34. -/
def termio : CDecl := st [("c_iflag", h), ("c_oflag", h), ("c_cflag", h), ("c_lflag", h), ("c_line", c), ("c_cc", .arr 8 c)]
/-- struct pollfd: include/poll.h:16-20. -/
def pollfd : CDecl := st [("fd", w), ("events", h), ("revents", h)]
/-- struct epoll_event, packed: include/epoll.h:30-40. -/
def epollEvent : CDecl := .packed (fields [("events", w), ("data", .union (fields [("ptr", l), ("fd", w), ("u32", w), ("u64", l)]))])
/-- struct dirent: include/dirent.h:69-76 (d_name, of unknown length, takes no place). -/
def dirent : CDecl := st [("d_ino", l), ("d_off", l), ("d_reclen", h), ("d_name", .arr 0 c)]
/-- struct tms: headers/linux_x64/sys/times.h:2-9. -/
def tms : CDecl := st [("tms_utime", l), ("tms_stime", l), ("tms_cutime", l), ("tms_cstime", l)]
/-- struct new_utsname: headers/linux_x64/sys/utsname.h:25-32. -/
def utsname : CDecl := st [("sysname", .arr 65 c), ("nodename", .arr 65 c), ("release", .arr 65 c), ("version", .arr 65 c), ("machine", .arr 65 c),
  ("domainname", .arr 65 c)]
/-- struct rusage: headers/linux_x64/resource.h:53-70. -/
def rusage : CDecl := st [("ru_utime", timeval), ("ru_stime", timeval), ("ru_maxrss", l), ("ru_ixrss", l), ("ru_idrss", l), ("ru_isrss", l), ("ru_minflt", l),
  ("ru_majflt", l), ("ru_nswap", l), ("ru_inblock", l), ("ru_oublock", l), ("ru_msgsnd", l), ("ru_msgrcv", l), ("ru_nsignals", l), ("ru_nvcsw", l),
  ("ru_nivcsw", l)]
/-- struct rlimit: headers/linux_x64/resource.h:72-75. -/
def rlimit : CDecl := st [("rlim_cur", l), ("rlim_max", l)]
/-- struct inotify_event: headers/linux_x64/bits/inotify.h:2-6. -/
def inotifyEvent : CDecl := st [("wd", w), ("mask", w), ("cookie", w), ("len", w), ("name", .arr 0 c)]
/-- sigset_t: headers/linux_x64/sys/signal.h:56. -/
def sigset : CDecl := st [("sig", l)]
/-- struct sigaction: headers/linux_x64/sys/signal.h:59-64. -/
def sigaction : CDecl := st [("sa_handler", l), ("sa_flags", l), ("restorer", l), ("sa_mask", sigset)]
/-- siginfo_t: headers/linux_x64/sys/signal.h:7-53 (`128 - 2*sizeof(int) - sizeof(long)` is 112). -/
def siginfo : CDecl := st [("si_signo", w), ("si_errno", w), ("si_code", w), ("_sifields", .union (fields [("__pad", .arr 112 c),
  ("_kill", st [("_pid", w), ("_uid", w)]), ("_timer", st [("_timer1", w), ("_timer2", w)]),
  ("_rt", st [("_pid", w), ("_uid", w), ("_sigval", .union (fields [("sival_int", w), ("sival_ptr", l)]))]),
  ("_sigchld", st [("_pid", w), ("_uid", w), ("_status", w), ("_utime", l), ("_stime", l)]), ("_sigfault", st [("_addr", l)]),
  ("_sigpoll", st [("_band", l), ("_fd", w)])]))]
/-- struct prctl_mm_map: headers/linux_x64/sys/prctl.h:84-99. -/
def prctlMmMap : CDecl := st [("start_code", l), ("end_code", l), ("start_data", l), ("end_data", l), ("start_brk", l), ("brk", l), ("start_stack", l),
  ("arg_start", l), ("arg_end", l), ("env_start", l), ("env_end", l), ("auxv", l), ("auxv_size", w), ("exe_fd", w)]
/-- struct seccomp_data: headers/linux_x64/seccomp.h:55-60. -/
def seccompData : CDecl := st [("nr", w), ("arch", w), ("instruction_pointer", l), ("args", .arr 6 l)]
/-- struct seccomp_notif: headers/linux_x64/seccomp.h:68-73. -/
def seccompNotif : CDecl := st [("id", l), ("pid", w), ("flags", w), ("data", seccompData)]
/-- struct seccomp_notif_resp: headers/linux_x64/seccomp.h:75-80. -/
def seccompResp : CDecl := st [("id", l), ("val", l), ("error", w), ("flags", w)]
/-- struct sockaddr: headers/common/sys/socket.h:5-8. -/
def sockaddr : CDecl := st [("sa_family", h), ("sa_data", .arr 14 c)]
/-- struct in_addr: include/network.h:364. -/
def inAddr : CDecl := st [("s_addr", w)]
/-- struct in6_addr: include/network.h:367-373. -/
def in6Addr : CDecl := st [("__in6_union", .union (fields [("__s6_addr", .arr 16 c), ("__s6_addr16", .arr 8 h), ("__s6_addr32", .arr 4 w)]))]
/-- struct sockaddr_in: include/network.h:457-462. -/
def sockaddrIn : CDecl := st [("sin_family", h), ("sin_port", h), ("sin_addr", inAddr), ("sin_zero", .arr 8 c)]
/-- struct sockaddr_ll: include/network.h:555-561. -/
def sockaddrLl : CDecl := st [("sll_family", h), ("sll_protocol", h), ("sll_ifindex", w), ("sll_hatype", h), ("sll_pkttype", c), ("sll_halen", c),
  ("sll_addr", .arr 8 c)]
/-- struct packet_mreq: include/network.h:563-567. -/
def packetMreq : CDecl := st [("mr_ifindex", w), ("mr_type", h), ("mr_alen", h), ("mr_address", .arr 8 c)]
/-- struct ifmap: include/network.h:475-482. -/
def ifmap : CDecl := st [("mem_start", l), ("mem_end", l), ("base_addr", h), ("irq", c), ("dma", c), ("port", c)]
/-- struct ifreq: include/network.h:532-551 (IF_NAMESIZE is 16, include/network.h:8). -/
def ifreq : CDecl := st [("ifr_ifrn", .union (fields [("ifrn_name", .arr 16 c)])), ("ifr_ifru", .union (fields [("ifru_addr", sockaddr),
  ("ifru_dstaddr", sockaddr), ("ifru_broadaddr", sockaddr), ("ifru_netmask", sockaddr), ("ifru_hwaddr", sockaddr), ("ifru_flags", h), ("ifru_ivalue", w),
  ("ifru_mtu", w), ("ifru_map", ifmap), ("ifru_slave", .arr 16 c), ("ifru_newname", .arr 16 c), ("ifru_data", l)]))]
/-- struct rtentry: include/network.h:608-624 (`sizeof(long)/2-1` is 3). -/
def rtentry : CDecl := st [("rt_pad1", l), ("rt_dst", sockaddr), ("rt_gateway", sockaddr), ("rt_genmask", sockaddr), ("rt_flags", h), ("rt_pad2", h),
  ("rt_pad3", l), ("rt_tos", c), ("rt_class", c), ("rt_pad4", .arr 3 h), ("rt_metric", h), ("rt_dev", l), ("rt_mtu", l), ("rt_window", l), ("rt_irtt", h)]
/-- struct in6_rtmsg: include/network.h:629-640. -/
def in6Rtmsg : CDecl := st [("rtmsg_dst", in6Addr), ("rtmsg_src", in6Addr), ("rtmsg_gateway", in6Addr), ("rtmsg_type", w), ("rtmsg_dst_len", h),
  ("rtmsg_src_len", h), ("rtmsg_metric", w), ("rtmsg_info", l), ("rtmsg_flags", w), ("rtmsg_ifindex", w)]
/-- struct udphdr: include/network.h:30-35. -/
def udphdr : CDecl := st [("uh_sport", h), ("uh_dport", h), ("uh_ulen", h), ("uh_sum", h)]
/-- struct ethhdr: include/network.h:408-412 (ETH_ALEN is 6, include/network.h:263). -/
def ethhdr : CDecl := st [("h_dest", .arr 6 c), ("h_source", .arr 6 c), ("h_proto", h)]
/-- struct iphdr: include/network.h:389-406; __BYTEORDER is __LITTLE_ENDIAN, include/globaldefs.h:8. -/
def iphdr : CDecl := .struct (.bits "ihl" 4 4 (.bits "version" 4 4 (fields [("tos", c), ("tot_len", h), ("id", h), ("frag_off", h), ("ttl", c),
  ("protocol", c), ("check", h), ("saddr", w), ("daddr", w)])))
/-- struct ip: include/network.h:416-432. -/
def ip : CDecl := .struct (.bits "ip_hl" 4 4 (.bits "ip_v" 4 4 (fields [("ip_tos", c), ("ip_len", h), ("ip_id", h), ("ip_off", h), ("ip_ttl", c),
  ("ip_p", c), ("ip_sum", h), ("ip_src", inAddr), ("ip_dst", inAddr)])))
/-- struct timestamp: include/network.h:376-387. -/
def timestamp : CDecl := .struct (.field "len" c (.field "ptr" c (.bits "flags" 4 4 (.bits "overflow" 4 4 (fields [("data", .arr 9 w)])))))
/-- struct ip_timestamp: include/network.h:439-451. -/
def ipTimestamp : CDecl := .struct (.field "ipt_code" c (.field "ipt_len" c (.field "ipt_ptr" c (.bits "ipt_flg" 4 4 (.bits "ipt_oflw" 4 4
  (fields [("data", .arr 9 w)]))))))

end Decl

/-! ### Macros of the headers -/

/-- S_IFMT: headers/common/bits/stat.h:5. -/
def sIFMT : BitVec 32 := 0o170000#32
/-- S_IFDIR: headers/common/bits/stat.h:9. -/
def sIFDIR : BitVec 32 := 0o040000#32
/-- S_IFCHR: headers/common/bits/stat.h:10. -/
def sIFCHR : BitVec 32 := 0o020000#32
/-- S_IFBLK: headers/common/bits/stat.h:11. -/
def sIFBLK : BitVec 32 := 0o060000#32
/-- S_IFREG: headers/common/bits/stat.h:12. -/
def sIFREG : BitVec 32 := 0o100000#32
/-- S_IFIFO: headers/common/bits/stat.h:13. -/
def sIFIFO : BitVec 32 := 0o010000#32
/-- S_IFLNK: headers/common/bits/stat.h:14. -/
def sIFLNK : BitVec 32 := 0o120000#32
/-- S_IFSOCK: headers/common/bits/stat.h:15. -/
def sIFSOCK : BitVec 32 := 0o140000#32

/-- S_ISDIR: headers/common/bits/stat.h:26. -/
def sISDIR (mode : BitVec 32) : Bool := mode &&& sIFMT == sIFDIR
/-- S_ISCHR: headers/common/bits/stat.h:27. -/
def sISCHR (mode : BitVec 32) : Bool := mode &&& sIFMT == sIFCHR
/-- S_ISBLK: headers/common/bits/stat.h:28. -/
def sISBLK (mode : BitVec 32) : Bool := mode &&& sIFMT == sIFBLK
/-- S_ISREG: headers/common/bits/stat.h:29. -/
def sISREG (mode : BitVec 32) : Bool := mode &&& sIFMT == sIFREG
/-- S_ISFIFO: headers/common/bits/stat.h:30. -/
def sISFIFO (mode : BitVec 32) : Bool := mode &&& sIFMT == sIFIFO
/-- S_ISLNK: headers/common/bits/stat.h:31. -/
def sISLNK (mode : BitVec 32) : Bool := mode &&& sIFMT == sIFLNK
/-- S_ISSOCK: headers/common/bits/stat.h:32. -/
def sISSOCK (mode : BitVec 32) : Bool := mode &&& sIFMT == sIFSOCK

/-- IFTODT: headers/common/dirent.h:19. -/
def ifToDt (x : BitVec 32) : BitVec 32 := x >>> 12 &&& 0o17#32
/-- DTTOIF: headers/common/dirent.h:20. -/
def dtToIf (x : BitVec 32) : BitVec 32 := x <<< 12

/-- _IOC: headers/common/bits/ioctl.h:4; with a size from `sizeof` the arithmetic is on 64 bits, except for the direction, an `unsigned int`. -/
def ioc (a : BitVec 32) (b c : BitVec 32) (d : BitVec 64) : BitVec 64 :=
  (a <<< 30).setWidth 64 ||| (b <<< 8).setWidth 64 ||| c.setWidth 64 ||| d <<< 16

/-- _IO: headers/common/bits/ioctl.h:9. -/
def iocNone (b c : BitVec 32) : BitVec 64 := ioc 0#32 b c 0#64
/-- _IOW: headers/common/bits/ioctl.h:10. -/
def iocW (b c : BitVec 32) (t : CDecl) : BitVec 64 := ioc 1#32 b c (BitVec.ofNat 64 t.sizeof)
/-- _IOR: headers/common/bits/ioctl.h:11. -/
def iocR (b c : BitVec 32) (t : CDecl) : BitVec 64 := ioc 2#32 b c (BitVec.ofNat 64 t.sizeof)
/-- _IOWR: headers/common/bits/ioctl.h:12. -/
def iocRW (b c : BitVec 32) (t : CDecl) : BitVec 64 := ioc (2#32 ||| 1#32) b c (BitVec.ofNat 64 t.sizeof)

end Minilib

import Verif.Model.Switches
import Verif.Model.Combine
/-
`minimake --genconf`: the configuration made from a source.  /repo/minimake:1003-1006, /repo/minilib.genconf.h.
-/

set_option autoImplicit false

namespace Minilib

/-! ### The preprocessor (C11 6.10.3) with the macros of minilib.genconf.h -/

/-- A token of the source, after comments and directives: a name, a parenthesis, the end of a line, or any other. -/
inductive CTok where
  | name (n : Line)
  | opn
  | cls
  | nl
  | other (t : Line)
  deriving DecidableEq

/-- Where the preprocessor is: in the text; behind the name of a macro and `k` ends of lines; in the arguments of a macro, `d` parentheses deep. -/
inductive GMode where
  | text
  | pend (n : Line) (k : Nat)
  | args (n : Line) (d : Nat)

/-- `_M_MLIB_`. -/
def txMlib : Line := [95#8, 77#8, 95#8, 77#8, 76#8, 73#8, 66#8, 95#8]

/-- `_M_`. -/
def txM : Line := [95#8, 77#8, 95#8]

/-- C11 6.10.3 with `#define f(...) _M_MLIB_f_M_()` (minilib.genconf.h:27-724) for all names of the table: a name in front of a parenthesis is replaced,
its arguments are not part of the replacement; a name without parenthesis stays.  `none`: a parenthesis is missing, an error.  Simplified: the source has
no macros of its own. -/
def expandToks (table : List Line) : GMode → List CTok → Option (List CTok)
  | .text, [] => some []
  | .text, .name n :: r =>
    if n ∈ table then expandToks table (.pend n 0) r else (.name n :: ·) <$> expandToks table .text r
  | .text, t :: r => (t :: ·) <$> expandToks table .text r
  | .pend n k, [] => some (.name n :: List.replicate k .nl)
  | .pend n _, .opn :: r => expandToks table (.args n 0) r
  | .pend n k, .nl :: r => expandToks table (.pend n (k + 1)) r
  | .pend n k, .name m :: r =>
    if m ∈ table then (fun o => .name n :: List.replicate k .nl ++ o) <$> expandToks table (.pend m 0) r
    else (fun o => .name n :: List.replicate k .nl ++ .name m :: o) <$> expandToks table .text r
  | .pend n k, t :: r => (fun o => .name n :: List.replicate k .nl ++ t :: o) <$> expandToks table .text r
  | .args _ _, [] => none
  | .args n d, .opn :: r => expandToks table (.args n (d + 1)) r
  | .args n 0, .cls :: r => (fun o => .name (txMlib ++ n ++ txM) :: .opn :: .cls :: o) <$> expandToks table .text r
  | .args n (d + 1), .cls :: r => expandToks table (.args n d) r
  | .args n d, _ :: r => expandToks table (.args n d) r

/-- What `gcc -E` prints; simplified: one blank behind every token. -/
def printToks : List CTok → Line
  | [] => []
  | .name n :: r => n ++ 32#8 :: printToks r
  | .opn :: r => 40#8 :: 32#8 :: printToks r
  | .cls :: r => 41#8 :: 32#8 :: printToks r
  | .nl :: r => 10#8 :: printToks r
  | .other t :: r => t ++ 32#8 :: printToks r

/-! ### `sed` -/

/-- minimake:1005, `s/_M_MLIB_/\n_M_MLIB_/g`; `k` characters of a match are still to be copied. -/
def sedSplit : Nat → Line → Line
  | _, [] => []
  | k + 1, b :: r => b :: sedSplit k r
  | 0, b :: r => if begins txMlib (b :: r) then 10#8 :: b :: sedSplit 7 r else b :: sedSplit 0 r

/-- The lines of a text. -/
def linesOf : Line → List Line
  | [] => [[]]
  | b :: r =>
    if b = 10#8 then [] :: linesOf r
    else match linesOf r with
      | [] => [[b]]
      | l :: ls => (b :: l) :: ls

/-- The text in front of the last `_M_`. -/
def beforeLast : Line → Option Line
  | [] => none
  | b :: r =>
    match beforeLast r with
    | some x => some (b :: x)
    | none => if begins txM (b :: r) then some [] else none

/-- minimake:1005, `s/^.*_M_MLIB_\(.*\)_M_.*/mini_\1/p` on a line: the name, if there is one. -/
def sedName : Line → Option Line
  | [] => none
  | b :: r =>
    match sedName r with
    | some x => some x
    | none => if begins txMlib (b :: r) then beforeLast (r.drop 7) else none

/-- A list without the names that come again. -/
def dropAgain : List Line → List Line
  | [] => []
  | x :: r => if x ∈ r then dropAgain r else x :: dropAgain r

/-- minimake:1003-1006: the names switched on by the configuration made for a source (`mini_` in front left out).  `sort -u` is simplified to removing
names that come again. -/
def genconf (table : List Line) (src : List CTok) : Option (List Line) :=
  (expandToks table .text src).map fun o => dropAgain ((linesOf (sedSplit 0 (printToks o))).filterMap sedName)

/-! ### The names -/

/-- A name from the codes of its characters. -/
def nb (l : List Nat) : Line := l.map (BitVec.ofNat 8)

/-- minilib.genconf.h:27-724, in this order (dirbufsize, line 209, has a blank behind its name and is no macro with arguments: left out). -/
def genconfTable : List Line :=
  [nb [95, 116, 105, 109, 101, 114, 95, 100, 101, 108, 101, 116, 101], -- _timer_delete
   nb [95, 119, 114, 105, 116, 101], -- _write
   nb [95, 112, 105, 112, 101, 50], -- _pipe2
   nb [95, 99, 108, 111, 110, 101], -- _clone
   nb [109, 101, 109, 115, 101, 116], -- memset
   nb [95, 101, 118, 101, 110, 116, 102, 100], -- _eventfd
   nb [112, 105, 112, 101], -- pipe
   nb [105, 115, 97, 116, 116, 121], -- isatty
   nb [103, 101, 116, 112, 105, 100], -- getpid
   nb [95, 109, 98, 105, 110, 100], -- _mbind
   nb [101, 112, 114, 105, 110, 116, 102, 115], -- eprintfs
   nb [102, 103, 101, 116, 115, 110], -- fgetsn
   nb [95, 115, 101, 116, 114, 101, 117, 105, 100], -- _setreuid
   nb [112, 116, 115, 110, 97, 109, 101, 95, 114], -- ptsname_r
   nb [95, 109, 115, 103, 103, 101, 116], -- _msgget
   nb [95, 105, 111, 95, 103, 101, 116, 101, 118, 101, 110, 116, 115], -- _io_getevents
   nb [102, 115, 101, 101, 107], -- fseek
   nb [116, 99, 115, 101, 116, 97, 116, 116, 114], -- tcsetattr
   nb [95, 114, 101, 110, 97, 109, 101, 97, 116], -- _renameat
   nb [114, 109, 100, 105, 114], -- rmdir
   nb [115, 121, 115, 95, 115, 105, 103, 110, 97, 109, 101], -- sys_signame
   nb [112, 111, 115, 105, 120, 95, 111, 112, 101, 110, 112, 116], -- posix_openpt
   nb [95, 109, 109, 97, 112], -- _mmap
   nb [95, 103, 101, 116, 103, 114, 111, 117, 112, 115], -- _getgroups
   nb [101, 116, 104, 101, 114, 95, 110, 116, 111, 97], -- ether_ntoa
   nb [111, 112, 101, 110, 100, 105, 114], -- opendir
   nb [95, 109, 112, 114, 105, 110, 116, 115], -- _mprints
   nb [95, 115, 99, 104, 101, 100, 95, 121, 105, 101, 108, 100], -- _sched_yield
   nb [95, 102, 99, 104, 109, 111, 100, 97, 116], -- _fchmodat
   nb [95, 114, 116, 95, 115, 105, 103, 112, 114, 111, 99, 109, 97, 115, 107], -- _rt_sigprocmask
   nb [112, 117, 116, 101, 110, 118], -- putenv
   nb [117, 116, 105, 109, 101], -- utime
   nb [105, 116, 111, 72, 69, 88], -- itoHEX
   nb [95, 108, 105, 115, 116, 101, 110], -- _listen
   nb [101, 120, 101, 99, 118, 112, 101], -- execvpe
   nb [95, 108, 105, 110, 107, 97, 116], -- _linkat
   nb [95, 105, 111, 112, 114, 105, 111, 95, 103, 101, 116], -- _ioprio_get
   nb [95, 116, 105, 109, 101], -- _time
   nb [110, 101, 116, 119, 111, 114, 107], -- network
   nb [115, 116, 114, 110, 99, 97, 115, 101, 99, 109, 112], -- strncasecmp
   nb [95, 102, 97, 100, 118, 105, 115, 101, 54, 52], -- _fadvise64
   nb [95, 105, 110, 111, 116, 105, 102, 121, 95, 97, 100, 100, 95, 119, 97, 116, 99, 104], -- _inotify_add_watch
   nb [114, 101, 99, 118], -- recv
   nb [95, 102, 105, 110, 105, 116, 95, 109, 111, 100, 117, 108, 101], -- _finit_module
   nb [102, 101, 120, 101, 99, 118, 101, 97, 116], -- fexecveat
   nb [95, 117, 116, 105, 109, 101], -- _utime
   nb [115, 121, 115, 95, 98, 114, 107], -- sys_brk
   nb [95, 114, 101, 98, 111, 111, 116], -- _reboot
   nb [109, 97, 116, 99, 104, 95, 101, 120, 116], -- match_ext
   nb [97, 98, 111, 114, 116], -- abort
   nb [109, 101, 109, 99, 112, 121], -- memcpy
   nb [95, 117, 116, 105, 109, 101, 110, 115, 97, 116], -- _utimensat
   nb [95, 116, 103, 107, 105, 108, 108], -- _tgkill
   nb [117, 109, 111, 117, 110, 116, 50], -- umount2
   nb [115, 114, 97, 110, 100], -- srand
   nb [115, 101, 116, 103, 114, 111, 117, 112, 115], -- setgroups
   nb [95, 101, 118, 101, 110, 116, 102, 100, 50], -- _eventfd2
   nb [115, 101, 116, 98, 117, 102], -- setbuf
   nb [118, 101, 120, 101, 99, 95, 113], -- vexec_q
   nb [102, 119, 114, 105, 116, 101, 115], -- fwrites
   nb [95, 108, 115, 101, 116, 120, 97, 116, 116, 114], -- _lsetxattr
   nb [115, 108, 101, 101, 112], -- sleep
   nb [95, 102, 99, 104, 111, 119, 110, 97, 116], -- _fchownat
   nb [112, 114, 105, 110, 116, 102], -- printf
   nb [95, 105, 110, 111, 116, 105, 102, 121, 95, 105, 110, 105, 116, 49], -- _inotify_init1
   nb [101, 112, 114, 105, 110, 116], -- eprint
   nb [95, 116, 105, 109, 101, 114, 102, 100, 95, 99, 114, 101, 97, 116, 101], -- _timerfd_create
   nb [102, 111, 114, 107], -- fork
   nb [117, 108, 116, 111, 100, 101, 99], -- ultodec
   nb [115, 112, 108, 105, 99, 101], -- splice
   nb [103, 101, 116, 103, 114, 101, 110, 116], -- getgrent
   nb [115, 116, 114, 99, 112, 121], -- strcpy
   nb [112, 119, 101, 110, 116], -- pwent
   nb [114, 101, 98, 111, 111, 116], -- reboot
   nb [95, 109, 111, 118, 101, 95, 112, 97, 103, 101, 115], -- _move_pages
   nb [95, 115, 104, 109, 99, 116, 108], -- _shmctl
   nb [95, 100, 117, 112], -- _dup
   nb [102, 112, 117, 116, 99], -- fputc
   nb [115, 116, 114, 110, 99, 109, 112], -- strncmp
   nb [95, 109, 115, 103, 115, 110, 100], -- _msgsnd
   nb [95, 115, 101, 116, 114, 101, 115, 103, 105, 100], -- _setresgid
   nb [101, 112, 117, 116, 115], -- eputs
   nb [95, 103, 101, 116, 99, 119, 100], -- _getcwd
   nb [98, 114, 107], -- brk
   nb [95, 115, 116, 97, 116], -- _stat
   nb [115, 101, 116, 103, 105, 100], -- setgid
   nb [95, 102, 99, 110, 116, 108], -- _fcntl
   nb [102, 108, 111, 99, 107], -- flock
   nb [95, 110, 97, 109, 101, 95, 116, 111, 95, 104, 97, 110, 100, 108, 101, 95, 97, 116], -- _name_to_handle_at
   nb [95, 115, 101, 116, 120, 97, 116, 116, 114], -- _setxattr
   nb [103, 101, 116, 112, 119, 117, 105, 100], -- getpwuid
   nb [95, 100, 101, 108, 101, 116, 101, 95, 109, 111, 100, 117, 108, 101], -- _delete_module
   nb [109, 101, 109, 102, 100, 95, 99, 114, 101, 97, 116, 101], -- memfd_create
   nb [100, 105, 101, 115], -- dies
   nb [95, 116, 105, 109, 101, 114, 102, 100, 95, 115, 101, 116, 116, 105, 109, 101], -- _timerfd_settime
   nb [95, 115, 105, 103, 97, 108, 116, 115, 116, 97, 99, 107], -- _sigaltstack
   nb [95, 109, 111, 117, 110, 116], -- _mount
   nb [115, 101, 110, 100, 116, 111], -- sendto
   nb [95, 115, 111, 99, 107, 101, 116], -- _socket
   nb [95, 108, 99, 104, 111, 119, 110], -- _lchown
   nb [109, 101, 109, 99, 109, 112], -- memcmp
   nb [95, 112, 114, 108, 105, 109, 105, 116, 54, 52], -- _prlimit64
   nb [95, 99, 108, 111, 115, 101], -- _close
   nb [95, 103, 101, 116, 112, 103, 114, 112], -- _getpgrp
   nb [95, 115, 121, 115, 102, 115], -- _sysfs
   nb [103, 101, 116, 101, 117, 105, 100], -- geteuid
   nb [115, 104, 111, 114, 116, 95, 101, 114, 114, 115, 116, 114], -- short_errstr
   nb [95, 115, 105, 103, 110, 97, 108, 102, 100, 52], -- _signalfd4
   nb [101, 110, 118, 105, 114, 111, 110], -- environ
   nb [95, 114, 116, 95, 115, 105, 103, 113, 117, 101, 117, 101, 105, 110, 102, 111], -- _rt_sigqueueinfo
   nb [95, 97, 114, 99, 104, 95, 112, 114, 99, 116, 108], -- _arch_prctl
   nb [119, 97, 105, 116, 52], -- wait4
   nb [95, 115, 101, 116, 115, 105, 100], -- _setsid
   nb [95, 115, 101, 116, 103, 105, 100], -- _setgid
   nb [95, 107, 101, 121, 99, 116, 108], -- _keyctl
   nb [115, 116, 114, 99, 104, 114, 110, 117, 108], -- strchrnul
   nb [95, 109, 107, 110, 111, 100, 97, 116], -- _mknodat
   nb [95, 109, 115, 121, 110, 99], -- _msync
   nb [95, 105, 111, 112, 101, 114, 109], -- _ioperm
   nb [115, 112, 114, 105, 110, 116, 102], -- sprintf
   nb [118, 115, 110, 112, 114, 105, 110, 116, 102], -- vsnprintf
   nb [118, 101, 114, 98, 111, 115, 101, 95, 101, 114, 114, 115, 116, 114, 50], -- verbose_errstr2
   nb [118, 115, 112, 114, 105, 110, 116, 102], -- vsprintf
   nb [109, 97, 108, 108, 111, 99], -- malloc
   nb [103, 101, 116, 112, 119, 110, 97, 109], -- getpwnam
   nb [95, 115, 101, 116, 112, 114, 105, 111, 114, 105, 116, 121], -- _setpriority
   nb [102, 114, 101, 97, 100], -- fread
   nb [115, 101, 116, 105, 116, 105, 109, 101, 114], -- setitimer
   nb [115, 116, 114, 99, 109, 112], -- strcmp
   nb [102, 101, 114, 114, 111, 114], -- ferror
   nb [95, 115, 121, 110, 99, 95, 102, 105, 108, 101, 95, 114, 97, 110, 103, 101], -- _sync_file_range
   nb [95, 109, 107, 110, 111, 100], -- _mknod
   nb [105, 116, 111, 100, 101, 99], -- itodec
   nb [95, 97, 99, 99, 101, 112, 116, 52], -- _accept4
   nb [102, 99, 104, 109, 111, 100], -- fchmod
   nb [95, 112, 116, 114, 97, 99, 101], -- _ptrace
   nb [95, 115, 104, 117, 116, 100, 111, 119, 110], -- _shutdown
   nb [111, 112, 101, 110, 100, 105, 114, 112], -- opendirp
   nb [115, 116, 114, 116, 111, 105, 109, 97, 120], -- strtoimax
   nb [104, 116, 111, 110, 115], -- htons
   nb [115, 101, 116, 114, 108, 105, 109, 105, 116], -- setrlimit
   nb [95, 112, 114, 99, 116, 108], -- _prctl
   nb [95, 105, 110, 105, 116, 95, 109, 111, 100, 117, 108, 101], -- _init_module
   nb [100, 116, 111, 100, 101, 99], -- dtodec
   nb [95, 105, 110, 111, 116, 105, 102, 121, 95, 114, 109, 95, 119, 97, 116, 99, 104], -- _inotify_rm_watch
   nb [102, 102, 108, 117, 115, 104], -- fflush
   nb [102, 112, 114, 105, 110, 116, 115], -- fprints
   nb [95, 112, 114, 111, 99, 101, 115, 115, 95, 118, 109, 95, 119, 114, 105, 116, 101, 118], -- _process_vm_writev
   nb [102, 100, 111, 112, 101, 110], -- fdopen
   nb [95, 109, 105, 110, 99, 111, 114, 101], -- _mincore
   nb [95, 109, 117, 110, 109, 97, 112], -- _munmap
   nb [115, 105, 103, 115, 117, 115, 112, 101, 110, 100], -- sigsuspend
   nb [102, 99, 104, 111, 119, 110], -- fchown
   nb [115, 116, 114, 100, 117, 112], -- strdup
   nb [101, 119, 114, 105, 116, 101], -- ewrite
   nb [103, 101, 116, 117, 105, 100], -- getuid
   nb [95, 115, 99, 104, 101, 100, 95, 103, 101, 116, 97, 116, 116, 114], -- _sched_getattr
   nb [95, 108, 114, 101, 109, 111, 118, 101, 120, 97, 116, 116, 114], -- _lremovexattr
   nb [79, 80, 84, 70, 69, 78, 67, 69], -- OPTFENCE
   nb [95, 116, 114, 117, 110, 99, 97, 116, 101], -- _truncate
   nb [103, 114, 111, 117, 112, 95, 112, 114, 105, 110, 116, 102], -- group_printf
   nb [115, 101, 116, 118, 98, 117, 102], -- setvbuf
   nb [115, 101, 116, 114, 101, 115, 117, 105, 100], -- setresuid
   nb [115, 105, 103, 97, 100, 100, 115, 101, 116], -- sigaddset
   nb [103, 101, 116, 98, 114, 107], -- getbrk
   nb [95, 109, 113, 95, 116, 105, 109, 101, 100, 115, 101, 110, 100], -- _mq_timedsend
   nb [114, 101, 97, 100, 108, 105, 110, 107], -- readlink
   nb [95, 109, 105, 103, 114, 97, 116, 101, 95, 112, 97, 103, 101, 115], -- _migrate_pages
   nb [95, 103, 101, 116, 112, 105, 100], -- _getpid
   nb [95, 114, 116, 95, 115, 105, 103, 114, 101, 116, 117, 114, 110], -- _rt_sigreturn
   nb [95, 114, 101, 109, 111, 118, 101, 120, 97, 116, 116, 114], -- _removexattr
   nb [95, 115, 101, 116, 112, 103, 105, 100], -- _setpgid
   nb [102, 115, 101, 116, 112, 111, 115], -- fsetpos
   nb [95, 115, 101, 109, 111, 112], -- _semop
   nb [95, 103, 101, 116, 115, 111, 99, 107, 111, 112, 116], -- _getsockopt
   nb [65, 76, 73, 71, 78], -- ALIGN
   nb [109, 97, 108, 108, 111, 99, 95, 98, 114, 107], -- malloc_brk
   nb [95, 114, 101, 99, 118, 102, 114, 111, 109], -- _recvfrom
   nb [100, 105, 114, 110, 97, 109, 101], -- dirname
   nb [95, 115, 101, 109, 99, 116, 108], -- _semctl
   nb [95, 109, 113, 95, 111, 112, 101, 110], -- _mq_open
   nb [115, 116, 112, 110, 99, 112, 121], -- stpncpy
   nb [95, 102, 108, 111, 99, 107], -- _flock
   nb [112, 117, 116, 99], -- putc
   nb [103, 101, 116, 115], -- gets
   nb [95, 119, 97, 105, 116, 105, 100], -- _waitid
   nb [95, 103, 101, 116, 114, 117, 115, 97, 103, 101], -- _getrusage
   nb [117, 105, 116, 111, 72, 69, 88], -- uitoHEX
   nb [95, 109, 115, 103, 99, 116, 108], -- _msgctl
   nb [114, 101, 116, 95, 101, 114, 114, 110, 111], -- ret_errno
   nb [95, 99, 108, 111, 99, 107, 95, 115, 101, 116, 116, 105, 109, 101], -- _clock_settime
   nb [116, 111, 107, 101, 110, 95, 115], -- token_s
   nb [95, 116, 105, 109, 101, 114, 95, 115, 101, 116, 116, 105, 109, 101], -- _timer_settime
   nb [95, 115, 99, 104, 101, 100, 95, 115, 101, 116, 115, 99, 104, 101, 100, 117, 108, 101, 114], -- _sched_setscheduler
   nb [95, 115, 99, 104, 101, 100, 95, 103, 101, 116, 95, 112, 114, 105, 111, 114, 105, 116, 121, 95, 109, 97, 120], -- _sched_get_priority_max
   nb [105, 110, 101, 116, 95, 97, 116, 111, 110], -- inet_aton
   nb [101, 112, 114, 105, 110, 116, 108], -- eprintl
   nb [95, 97, 99, 99, 101, 112, 116], -- _accept
   nb [100, 105, 114, 98, 117, 102, 95, 109, 97, 108, 108, 111, 99], -- dirbuf_malloc
   nb [117, 115, 101, 114, 100, 98, 95, 111, 112, 101, 110], -- userdb_open
   nb [95, 114, 116, 95, 115, 105, 103, 116, 105, 109, 101, 100, 119, 97, 105, 116], -- _rt_sigtimedwait
   nb [97, 116, 101, 120, 105, 116], -- atexit
   nb [95, 105, 111, 112, 114, 105, 111, 95, 115, 101, 116], -- _ioprio_set
   nb [111, 112, 101, 110], -- open
   nb [99, 108, 111, 115, 101], -- close
   nb [95, 115, 99, 104, 101, 100, 95, 115, 101, 116, 97, 102, 102, 105, 110, 105, 116, 121], -- _sched_setaffinity
   nb [100, 117, 112, 51], -- dup3
   nb [95, 107, 101, 120, 101, 99, 95, 102, 105, 108, 101, 95, 108, 111, 97, 100], -- _kexec_file_load
   nb [102, 103, 101, 116, 99], -- fgetc
   nb [100, 106, 98, 50, 95, 104, 97, 115, 104], -- djb2_hash
   nb [119, 97, 114, 110], -- warn
   nb [110, 116, 111, 104, 108], -- ntohl
   nb [116, 99, 115, 101, 116, 112, 103, 114, 112], -- tcsetpgrp
   nb [98, 115, 100, 95, 100, 101, 102, 105, 110, 105, 116, 105, 111, 110, 115], -- bsd_definitions
   nb [95, 118, 109, 115, 112, 108, 105, 99, 101], -- _vmsplice
   nb [115, 116, 114, 110, 99, 97, 116], -- strncat
   nb [98, 115, 100, 95, 116, 105, 109, 101, 115, 112, 101, 99], -- bsd_timespec
   nb [103, 101, 116, 112, 103, 114, 112], -- getpgrp
   nb [114, 116, 95, 115, 105, 103, 112, 114, 111, 99, 109, 97, 115, 107], -- rt_sigprocmask
   nb [95, 102, 115, 101, 116, 120, 97, 116, 116, 114], -- _fsetxattr
   nb [100, 106, 98, 95, 99, 107, 115, 117, 109], -- djb_cksum
   nb [95, 103, 101, 116, 114, 101, 115, 103, 105, 100], -- _getresgid
   nb [109, 97, 116, 99, 104, 95, 101, 120, 116, 50], -- match_ext2
   nb [95, 118, 104, 97, 110, 103, 117, 112], -- _vhangup
   nb [102, 111, 112, 101, 110], -- fopen
   nb [112, 114, 105, 110, 116], -- print
   nb [103, 101, 116, 103, 114, 110, 97, 109], -- getgrnam
   nb [95, 103, 101, 116, 101, 103, 105, 100], -- _getegid
   nb [95, 109, 107, 100, 105, 114, 97, 116], -- _mkdirat
   nb [117, 105, 116, 111, 100, 101, 99], -- uitodec
   nb [95, 109, 115, 103, 114, 99, 118], -- _msgrcv
   nb [95, 112, 114, 101, 97, 100, 54, 52], -- _pread64
   nb [102, 119, 114, 105, 116, 101, 115, 108], -- fwritesl
   nb [109, 97, 112, 95, 112, 114, 111, 116, 101, 99, 116, 101, 100], -- map_protected
   nb [112, 97, 115, 115, 119, 100, 102, 105, 108, 101, 95, 111, 112, 101, 110], -- passwdfile_open
   nb [95, 109, 107, 100, 105, 114], -- _mkdir
   nb [95, 115, 101, 110, 100, 102, 105, 108, 101], -- _sendfile
   nb [100, 105, 118], -- div
   nb [108, 115, 116, 97, 116], -- lstat
   nb [95, 115, 101, 116, 102, 115, 117, 105, 100], -- _setfsuid
   nb [115, 116, 114, 116, 111, 107], -- strtok
   nb [115, 116, 112, 108, 99, 112, 121], -- stplcpy
   nb [95, 114, 101, 97, 100, 97, 104, 101, 97, 100], -- _readahead
   nb [95, 97, 99, 99, 101, 115, 115], -- _access
   nb [99, 111, 110, 102, 105, 103], -- config
   nb [95, 110, 101, 119, 102, 115, 116, 97, 116, 97, 116], -- _newfstatat
   nb [95, 114, 101, 110, 97, 109, 101, 97, 116, 50], -- _renameat2
   nb [98, 105, 110, 100], -- bind
   nb [95, 114, 116, 95, 115, 105, 103, 115, 117, 115, 112, 101, 110, 100], -- _rt_sigsuspend
   nb [95, 115, 101, 116, 103, 114, 111, 117, 112, 115], -- _setgroups
   nb [95, 111, 112, 101, 110, 95, 98, 121, 95, 104, 97, 110, 100, 108, 101, 95, 97, 116], -- _open_by_handle_at
   nb [95, 115, 121, 109, 108, 105, 110, 107, 97, 116], -- _symlinkat
   nb [109, 112, 114, 111, 116, 101, 99, 116], -- mprotect
   nb [95, 98, 105, 110, 100], -- _bind
   nb [95, 109, 97, 116, 99, 104], -- _match
   nb [95, 102, 111, 112, 101, 110], -- _fopen
   nb [95, 115, 121, 115, 108, 111, 103], -- _syslog
   nb [118, 102, 111, 114, 107], -- vfork
   nb [95, 114, 101, 97, 100, 108, 105, 110, 107], -- _readlink
   nb [95, 115, 104, 109, 103, 101, 116], -- _shmget
   nb [97, 99, 99, 101, 112, 116], -- accept
   nb [115, 101, 116, 101, 110, 118], -- setenv
   nb [99, 114, 101, 97, 116], -- creat
   nb [103, 101, 116, 112, 112, 105, 100], -- getppid
   nb [95, 109, 111, 100, 105, 102, 121, 95, 108, 100, 116], -- _modify_ldt
   nb [99, 108, 101, 97, 114, 101, 114, 114], -- clearerr
   nb [95, 105, 111, 95, 100, 101, 115, 116, 114, 111, 121], -- _io_destroy
   nb [115, 116, 114, 99, 104, 114], -- strchr
   nb [115, 116, 114, 115, 112, 110], -- strspn
   nb [95, 109, 117, 110, 108, 111, 99, 107, 97, 108, 108], -- _munlockall
   nb [103, 101, 116, 115, 105, 100], -- getsid
   nb [117, 110, 115, 101, 116, 101, 110, 118], -- unsetenv
   nb [115, 116, 114, 115, 116, 114], -- strstr
   nb [118, 101, 120, 101, 99], -- vexec
   nb [95, 102, 99, 104, 109, 111, 100], -- _fchmod
   nb [95, 111, 112, 101, 110, 97, 116], -- _openat
   nb [95, 115, 99, 104, 101, 100, 95, 115, 101, 116, 112, 97, 114, 97, 109], -- _sched_setparam
   nb [103, 101, 116, 104, 111, 115, 116, 110, 97, 109, 101], -- gethostname
   nb [114, 101, 119, 105, 110, 100, 100, 105, 114], -- rewinddir
   nb [103, 101, 116, 103, 114, 111, 117, 112, 108, 105, 115, 116], -- getgrouplist
   nb [107, 105, 108, 108], -- kill
   nb [95, 102, 111, 114, 107], -- _fork
   nb [95, 97, 100, 100, 95, 107, 101, 121], -- _add_key
   nb [114, 101, 99, 118, 102, 114, 111, 109], -- recvfrom
   nb [109, 115, 121, 110, 99], -- msync
   nb [95, 99, 108, 111, 99, 107, 95, 110, 97, 110, 111, 115, 108, 101, 101, 112], -- _clock_nanosleep
   nb [117, 110, 97, 109, 101], -- uname
   nb [95, 118, 102, 111, 114, 107], -- _vfork
   nb [115, 99, 97, 110, 100, 105, 114, 95, 98, 117, 102, 115, 105, 122, 101], -- scandir_bufsize
   nb [114, 116, 95, 115, 105, 103, 97, 99, 116, 105, 111, 110], -- rt_sigaction
   nb [95, 103, 101, 116, 112, 103, 105, 100], -- _getpgid
   nb [115, 101, 110, 100, 102, 105, 108, 101], -- sendfile
   nb [102, 103, 101, 116, 112, 111, 115], -- fgetpos
   nb [100, 105, 101, 102, 95, 105, 102], -- dief_if
   nb [116, 111, 107, 101, 110, 95, 105], -- token_i
   nb [95, 101, 112, 111, 108, 108, 95, 99, 114, 101, 97, 116, 101, 49], -- _epoll_create1
   nb [112, 114, 99, 116, 108], -- prctl
   nb [101, 114, 114, 111, 114], -- error
   nb [102, 114, 101, 101], -- free
   nb [119, 114, 105, 116, 101], -- write
   nb [109, 101, 109, 99, 104, 114], -- memchr
   nb [109, 107, 102, 105, 102, 111], -- mkfifo
   nb [95, 112, 97, 117, 115, 101], -- _pause
   nb [95, 102, 114, 101, 109, 111, 118, 101, 120, 97, 116, 116, 114], -- _fremovexattr
   nb [95, 114, 101, 110, 97, 109, 101], -- _rename
   nb [95, 115, 101, 116, 115, 111, 99, 107, 111, 112, 116], -- _setsockopt
   nb [95, 115, 121, 110, 99], -- _sync
   nb [95, 102, 115, 121, 110, 99], -- _fsync
   nb [108, 116, 111, 100, 101, 99], -- ltodec
   nb [95, 109, 108, 111, 99, 107, 97, 108, 108], -- _mlockall
   nb [95, 97, 99, 99, 116], -- _acct
   nb [105, 110, 111, 116, 105, 102, 121, 95, 105, 110, 105, 116, 49], -- inotify_init1
   nb [112, 105, 118, 111, 116, 95, 114, 111, 111, 116], -- pivot_root
   nb [95, 103, 101, 116, 120, 97, 116, 116, 114], -- _getxattr
   nb [95, 115, 121, 109, 108, 105, 110, 107], -- _symlink
   nb [105, 110, 101, 116, 95, 110, 116, 111, 97], -- inet_ntoa
   nb [115, 101, 116, 114, 101, 117, 105, 100], -- setreuid
   nb [95, 102, 97, 110, 111, 116, 105, 102, 121, 95, 109, 97, 114, 107], -- _fanotify_mark
   nb [97, 99, 99, 101, 115, 115], -- access
   nb [95, 109, 113, 95, 103, 101, 116, 115, 101, 116, 97, 116, 116, 114], -- _mq_getsetattr
   nb [109, 109, 97, 112], -- mmap
   nb [95, 103, 101, 116, 116, 105, 100], -- _gettid
   nb [103, 101, 116, 99, 104, 97, 114], -- getchar
   nb [95, 102, 97, 99, 99, 101, 115, 115, 97, 116], -- _faccessat
   nb [115, 101, 116, 115, 111, 99, 107, 111, 112, 116], -- setsockopt
   nb [115, 119, 97, 112], -- swap
   nb [95, 107, 101, 120, 101, 99, 95, 108, 111, 97, 100], -- _kexec_load
   nb [115, 116, 114, 101, 114, 114, 111, 114], -- strerror
   nb [95, 103, 101, 116, 103, 105, 100], -- _getgid
   nb [95, 115, 101, 109, 103, 101, 116], -- _semget
   nb [95, 105, 111, 95, 115, 101, 116, 117, 112], -- _io_setup
   nb [95, 105, 111, 112, 108], -- _iopl
   nb [115, 116, 114, 110, 108, 101, 110], -- strnlen
   nb [95, 103, 101, 116, 114, 97, 110, 100, 111, 109], -- _getrandom
   nb [115, 116, 97, 116], -- stat
   nb [98, 115, 101, 97, 114, 99, 104], -- bsearch
   nb [95, 109, 108, 111, 99, 107], -- _mlock
   nb [102, 114, 101, 101, 95, 98, 114, 107], -- free_brk
   nb [102, 112, 114, 105, 110, 116, 102], -- fprintf
   nb [102, 101, 120, 101, 99, 118, 101], -- fexecve
   nb [95, 103, 101, 116, 115, 105, 100], -- _getsid
   nb [103, 101, 116, 112, 119, 101, 110, 116], -- getpwent
   nb [95, 103, 101, 116, 112, 114, 105, 111, 114, 105, 116, 121], -- _getpriority
   nb [95, 115, 112, 108, 105, 99, 101], -- _splice
   nb [95, 108, 115, 101, 101, 107], -- _lseek
   nb [117, 110, 108, 111, 99, 107, 112, 116], -- unlockpt
   nb [95, 102, 97, 110, 111, 116, 105, 102, 121, 95, 105, 110, 105, 116], -- _fanotify_init
   nb [95, 117, 115, 116, 97, 116], -- _ustat
   nb [103, 101, 116, 100, 101, 110, 116, 115], -- getdents
   nb [102, 114, 101, 111, 112, 101, 110], -- freopen
   nb [95, 115, 121, 115, 105, 110, 102, 111], -- _sysinfo
   nb [95, 102, 99, 104, 111, 119, 110], -- _fchown
   nb [79, 80, 84, 73, 77, 73, 90, 65, 84, 73, 79, 78, 83], -- OPTIMIZATIONS
   nb [95, 114, 101, 97, 100], -- _read
   nb [103, 114, 111, 117, 112, 95, 112, 114, 105, 110, 116], -- group_print
   nb [103, 101, 116, 114, 108, 105, 109, 105, 116], -- getrlimit
   nb [95, 105, 116, 111, 104, 101, 120], -- _itohex
   nb [95, 112, 115, 101, 108, 101, 99, 116, 54], -- _pselect6
   nb [95, 112, 111, 108, 108], -- _poll
   nb [115, 101, 116, 101, 114, 114, 110, 111], -- seterrno
   nb [102, 112, 117, 116, 115], -- fputs
   nb [95, 115, 116, 114, 99, 109, 112], -- _strcmp
   nb [115, 101, 116, 117, 105, 100], -- setuid
   nb [117, 105, 116, 111, 104, 101, 120], -- uitohex
   nb [95, 112, 114, 101, 97, 100, 118], -- _preadv
   nb [95, 114, 101, 113, 117, 101, 115, 116, 95, 107, 101, 121], -- _request_key
   nb [95, 115, 101, 116, 95, 109, 101, 109, 112, 111, 108, 105, 99, 121], -- _set_mempolicy
   nb [97, 110, 115, 105, 99, 111, 108, 111, 114, 115], -- ansicolors
   nb [109, 97, 116, 99, 104], -- match
   nb [114, 101, 97, 100], -- read
   nb [100, 112, 114, 105, 110, 116, 115], -- dprints
   nb [105, 116, 111, 98, 105, 110], -- itobin
   nb [115, 116, 114, 108, 101, 110], -- strlen
   nb [95, 99, 108, 111, 99, 107, 95, 97, 100, 106, 116, 105, 109, 101], -- _clock_adjtime
   nb [115, 116, 114, 110, 100, 117, 112], -- strndup
   nb [95, 105, 111, 95, 115, 117, 98, 109, 105, 116], -- _io_submit
   nb [95, 102, 103, 101, 116, 120, 97, 116, 116, 114], -- _fgetxattr
   nb [103, 101, 116, 114, 101, 115, 117, 105, 100], -- getresuid
   nb [102, 99, 108, 111, 115, 101], -- fclose
   nb [115, 101, 116, 98, 114, 107], -- setbrk
   nb [95, 99, 114, 101, 97, 116], -- _creat
   nb [101, 119, 114, 105, 116, 101, 115], -- ewrites
   nb [95, 103, 101, 116, 114, 108, 105, 109, 105, 116], -- _getrlimit
   nb [109, 114, 101, 109, 97, 112], -- mremap
   nb [101, 120, 101, 99, 118], -- execv
   nb [95, 115, 121, 110, 99, 102, 115], -- _syncfs
   nb [98, 115, 100, 95, 99, 107, 115, 117, 109], -- bsd_cksum
   nb [95, 108, 105, 110, 107], -- _link
   nb [118, 101, 114, 98, 111, 115, 101, 95, 101, 114, 114, 115, 116, 114], -- verbose_errstr
   nb [102, 105, 108, 101, 110, 111], -- fileno
   nb [97, 108, 112, 104, 97, 115, 111, 114, 116], -- alphasort
   nb [116, 99, 103, 101, 116, 112, 103, 114, 112], -- tcgetpgrp
   nb [102, 112, 114, 105, 110, 116], -- fprint
   nb [95, 115, 101, 116, 116, 105, 109, 101, 111, 102, 100, 97, 121], -- _settimeofday
   nb [115, 101, 101, 107, 100, 105, 114], -- seekdir
   nb [95, 115, 116, 114, 99, 97, 115, 101, 99, 109, 112], -- _strcasecmp
   nb [99, 104, 114, 111, 111, 116], -- chroot
   nb [95, 115, 101, 116, 100, 111, 109, 97, 105, 110, 110, 97, 109, 101], -- _setdomainname
   nb [112, 117, 116, 99, 104, 97, 114], -- putchar
   nb [95, 112, 112, 111, 108, 108], -- _ppoll
   nb [95, 115, 119, 97, 112, 111, 110], -- _swapon
   nb [102, 101, 111, 102], -- feof
   nb [95, 99, 104, 100, 105, 114], -- _chdir
   nb [95, 115, 111, 99, 107, 101, 116, 112, 97, 105, 114], -- _socketpair
   nb [95, 115, 99, 104, 101, 100, 95, 103, 101, 116, 95, 112, 114, 105, 111, 114, 105, 116, 121, 95, 109, 105, 110], -- _sched_get_priority_min
   nb [95, 114, 101, 97, 100, 108, 105, 110, 107, 97, 116], -- _readlinkat
   nb [95, 103, 101, 116, 112, 112, 105, 100], -- _getppid
   nb [115, 116, 114, 116, 111, 108, 108], -- strtoll
   nb [118, 104, 97, 110, 103, 117, 112], -- vhangup
   nb [95, 115, 101, 99, 99, 111, 109, 112], -- _seccomp
   nb [95, 107, 99, 109, 112], -- _kcmp
   nb [101, 120, 105, 116], -- exit
   nb [105, 110, 111, 116, 105, 102, 121, 95, 105, 110, 105, 116], -- inotify_init
   nb [109, 107, 110, 111, 100], -- mknod
   nb [102, 116, 114, 117, 110, 99, 97, 116, 101], -- ftruncate
   nb [99, 102, 109, 97, 107, 101, 114, 97, 119], -- cfmakeraw
   nb [112, 114, 105, 110, 116, 108], -- printl
   nb [95, 99, 104, 111, 119, 110], -- _chown
   nb [97, 116, 111, 108], -- atol
   nb [119, 104, 101, 114, 101], -- where
   nb [115, 116, 114, 99, 97, 115, 101, 99, 109, 112], -- strcasecmp
   nb [102, 112, 114, 105, 110, 116, 102, 115], -- fprintfs
   nb [95, 115, 99, 104, 101, 100, 95, 103, 101, 116, 115, 99, 104, 101, 100, 117, 108, 101, 114], -- _sched_getscheduler
   nb [105, 111, 99, 116, 108], -- ioctl
   nb [116, 105, 109, 101], -- time
   nb [95, 116, 105, 109, 101, 114, 95, 103, 101, 116, 116, 105, 109, 101], -- _timer_gettime
   nb [95, 99, 108, 111, 99, 107, 95, 103, 101, 116, 116, 105, 109, 101], -- _clock_gettime
   nb [100, 105, 101, 102], -- dief
   nb [100, 105, 114, 98, 117, 102], -- dirbuf
   nb [103, 101, 116, 105, 116, 105, 109, 101, 114], -- getitimer
   nb [105, 116, 111, 104, 101, 120], -- itohex
   nb [109, 107, 100, 105, 114], -- mkdir
   nb [95, 114, 101, 99, 118, 109, 109, 115, 103], -- _recvmmsg
   nb [95, 103, 101, 116, 115, 111, 99, 107, 110, 97, 109, 101], -- _getsockname
   nb [95, 101, 120, 105, 116, 95, 103, 114, 111, 117, 112], -- _exit_group
   nb [115, 98, 114, 107], -- sbrk
   nb [95, 117, 110, 115, 104, 97, 114, 101], -- _unshare
   nb [95, 99, 104, 109, 111, 100], -- _chmod
   nb [101, 114, 114, 110, 111, 95, 115, 116, 114], -- errno_str
   nb [95, 115, 99, 104, 101, 100, 95, 103, 101, 116, 97, 102, 102, 105, 110, 105, 116, 121], -- _sched_getaffinity
   nb [119, 114, 105, 116, 101, 115], -- writes
   nb [116, 105, 109, 101, 114, 102, 100, 95, 103, 101, 116, 116, 105, 109, 101], -- timerfd_gettime
   nb [95, 115, 101, 110, 100, 109, 115, 103], -- _sendmsg
   nb [99, 108, 111, 110, 101, 95, 116], -- clone_t
   nb [103, 101, 116, 103, 114, 111, 117, 112, 115], -- getgroups
   nb [95, 117, 110, 108, 105, 110, 107], -- _unlink
   nb [95, 108, 115, 116, 97, 116], -- _lstat
   nb [103, 101, 116, 103, 114, 103, 105, 100], -- getgrgid
   nb [95, 119, 114, 105, 116, 101, 118], -- _writev
   nb [95, 109, 113, 95, 110, 111, 116, 105, 102, 121], -- _mq_notify
   nb [100, 117, 112, 50], -- dup2
   nb [95, 114, 101, 97, 100, 118], -- _readv
   nb [95, 102, 116, 114, 117, 110, 99, 97, 116, 101], -- _ftruncate
   nb [115, 105, 103, 110, 97, 108], -- signal
   nb [101, 120, 101, 99, 118, 112], -- execvp
   nb [95, 102, 117, 116, 101, 120], -- _futex
   nb [95, 115, 101, 110, 100, 116, 111], -- _sendto
   nb [101, 114, 114, 120], -- errx
   nb [95, 102, 100, 97, 116, 97, 115, 121, 110, 99], -- _fdatasync
   nb [114, 101, 119, 105, 110, 100], -- rewind
   nb [95, 103, 101, 116, 112, 101, 101, 114, 110, 97, 109, 101], -- _getpeername
   nb [95, 103, 101, 116, 99, 112, 117], -- _getcpu
   nb [95, 105, 116, 111, 98, 105, 110], -- _itobin
   nb [108, 105, 110, 107], -- link
   nb [99, 104, 109, 111, 100], -- chmod
   nb [95, 108, 108, 105, 115, 116, 120, 97, 116, 116, 114], -- _llistxattr
   nb [95, 114, 116, 95, 115, 105, 103, 112, 101, 110, 100, 105, 110, 103], -- _rt_sigpending
   nb [95, 105, 110, 111, 116, 105, 102, 121, 95, 105, 110, 105, 116], -- _inotify_init
   nb [95, 117, 116, 105, 109, 101, 115], -- _utimes
   nb [117, 110, 103, 101, 116, 99], -- ungetc
   nb [115, 101, 116, 103, 114, 101, 110, 116], -- setgrent
   nb [103, 101, 116, 103, 105, 100], -- getgid
   nb [95, 101, 112, 111, 108, 108, 95, 99, 116, 108], -- _epoll_ctl
   nb [95, 109, 97, 100, 118, 105, 115, 101], -- _madvise
   nb [112, 114, 105, 110, 116, 102, 115], -- printfs
   nb [117, 115, 101, 114, 100, 98], -- userdb
   nb [95, 105, 111, 99, 116, 108], -- _ioctl
   nb [109, 111, 117, 110, 116], -- mount
   nb [117, 110, 109, 97, 112, 95, 112, 114, 111, 116, 101, 99, 116, 101, 100], -- unmap_protected
   nb [101, 112, 114, 105, 110, 116, 115], -- eprints
   nb [116, 101, 108, 108, 100, 105, 114], -- telldir
   nb [102, 119, 114, 105, 116, 101], -- fwrite
   nb [95, 103, 101, 116, 95, 114, 111, 98, 117, 115, 116, 95, 108, 105, 115, 116], -- _get_robust_list
   nb [95, 103, 101, 116, 101, 117, 105, 100], -- _geteuid
   nb [115, 101, 116, 112, 103, 105, 100], -- setpgid
   nb [95, 115, 101, 116, 114, 101, 103, 105, 100], -- _setregid
   nb [102, 115, 116, 97, 116], -- fstat
   nb [114, 101, 97, 108, 108, 111, 99], -- realloc
   nb [103, 101, 116, 114, 117, 115, 97, 103, 101], -- getrusage
   nb [115, 110, 112, 114, 105, 110, 116, 102, 115], -- snprintfs
   nb [95, 105, 111, 95, 99, 97, 110, 99, 101, 108], -- _io_cancel
   nb [107, 105, 108, 108, 112, 103], -- killpg
   nb [95, 114, 109, 100, 105, 114], -- _rmdir
   nb [100, 105, 101], -- die
   nb [101, 120, 101, 99, 108], -- execl
   nb [108, 111, 99, 97, 108, 101, 95, 100, 117, 109, 109, 105, 101, 115], -- locale_dummies
   nb [100, 105, 101, 95, 105, 102], -- die_if
   nb [104, 116, 111, 110, 108], -- htonl
   nb [95, 114, 101, 109, 97, 112, 95, 102, 105, 108, 101, 95, 112, 97, 103, 101, 115], -- _remap_file_pages
   nb [95, 103, 101, 116, 117, 105, 100], -- _getuid
   nb [97, 98, 115], -- abs
   nb [115, 116, 114, 108, 99, 112, 121], -- strlcpy
   nb [95, 112, 105, 112, 101], -- _pipe
   nb [95, 115, 101, 116, 114, 101, 115, 117, 105, 100], -- _setresuid
   nb [95, 117, 110, 97, 109, 101], -- _uname
   nb [116, 105, 109, 101, 114, 102, 100, 95, 99, 114, 101, 97, 116, 101], -- timerfd_create
   nb [95, 109, 112, 114, 111, 116, 101, 99, 116], -- _mprotect
   nb [95, 112, 119, 114, 105, 116, 101, 54, 52], -- _pwrite64
   nb [95, 115, 101, 116, 105, 116, 105, 109, 101, 114], -- _setitimer
   nb [112, 114, 105, 110, 116, 115], -- prints
   nb [95, 109, 114, 101, 109, 97, 112], -- _mremap
   nb [95, 102, 97, 108, 108, 111, 99, 97, 116, 101], -- _fallocate
   nb [101, 110, 100, 103, 114, 101, 110, 116], -- endgrent
   nb [95, 109, 113, 95, 117, 110, 108, 105, 110, 107], -- _mq_unlink
   nb [95, 115, 99, 104, 101, 100, 95, 103, 101, 116, 112, 97, 114, 97, 109], -- _sched_getparam
   nb [115, 100, 98, 109, 95, 104, 97, 115, 104], -- sdbm_hash
   nb [116, 101, 114, 109, 105, 111], -- termio
   nb [95, 115, 104, 109, 97, 116], -- _shmat
   nb [95, 99, 97, 112, 103, 101, 116], -- _capget
   nb [102, 103, 101, 116, 117, 108], -- fgetul
   nb [115, 105, 103, 102, 105, 108, 108, 115, 101, 116], -- sigfillset
   nb [102, 115, 121, 110, 99], -- fsync
   nb [95, 117, 109, 97, 115, 107], -- _umask
   nb [95, 112, 101, 114, 115, 111, 110, 97, 108, 105, 116, 121], -- _personality
   nb [99, 108, 111, 115, 101, 100, 105, 114], -- closedir
   nb [95, 103, 101, 116, 116, 105, 109, 101, 111, 102, 100, 97, 121], -- _gettimeofday
   nb [116, 99, 103, 101, 116, 97, 116, 116, 114], -- tcgetattr
   nb [102, 103, 101, 116, 117, 100], -- fgetud
   nb [95, 99, 97, 112, 115, 101, 116], -- _capset
   nb [103, 101, 116, 115, 111, 99, 107, 111, 112, 116], -- getsockopt
   nb [115, 121, 109, 108, 105, 110, 107], -- symlink
   nb [105, 110, 111, 116, 105, 102, 121, 95, 114, 109, 95, 119, 97, 116, 99, 104], -- inotify_rm_watch
   nb [100, 112, 114, 105, 110, 116, 102], -- dprintf
   nb [114, 101, 97, 100, 100, 105, 114], -- readdir
   nb [117, 115, 108, 101, 101, 112], -- usleep
   nb [115, 116, 114, 116, 111, 108], -- strtol
   nb [95, 114, 116, 95, 116, 103, 115, 105, 103, 113, 117, 101, 117, 101, 105, 110, 102, 111], -- _rt_tgsigqueueinfo
   nb [103, 101, 116, 117, 115, 101, 114, 103, 114, 111, 117, 112, 115], -- getusergroups
   nb [105, 110, 111, 116, 105, 102, 121, 95, 97, 100, 100, 95, 119, 97, 116, 99, 104], -- inotify_add_watch
   nb [114, 116, 95, 115, 105, 103, 115, 117, 115, 112, 101, 110, 100], -- rt_sigsuspend
   nb [115, 105, 103, 105, 115, 109, 101, 109, 98, 101, 114], -- sigismember
   nb [95, 115, 101, 108, 101, 99, 116], -- _select
   nb [112, 116, 115, 110, 97, 109, 101], -- ptsname
   nb [97, 116, 111, 105], -- atoi
   nb [114, 101, 110, 97, 109, 101], -- rename
   nb [101, 119, 114, 105, 116, 101, 115, 108], -- ewritesl
   nb [115, 101, 116, 112, 119, 101, 110, 116], -- setpwent
   nb [105, 110, 105, 116, 103, 114, 111, 117, 112, 115], -- initgroups
   nb [95, 116, 105, 109, 101, 114, 102, 100, 95, 103, 101, 116, 116, 105, 109, 101], -- _timerfd_gettime
   nb [119, 97, 105, 116], -- wait
   nb [119, 97, 105, 116, 112, 105, 100], -- waitpid
   nb [102, 116, 101, 108, 108], -- ftell
   nb [95, 99, 104, 114, 111, 111, 116], -- _chroot
   nb [95, 117, 110, 108, 105, 110, 107, 97, 116], -- _unlinkat
   nb [95, 101, 112, 111, 108, 108, 95, 112, 119, 97, 105, 116], -- _epoll_pwait
   nb [95, 101, 112, 111, 108, 108, 95, 119, 97, 105, 116], -- _epoll_wait
   nb [119, 114, 105, 116, 101, 115, 108], -- writesl
   nb [110, 116, 111, 104, 115], -- ntohs
   nb [95, 115, 119, 97, 112, 111, 102, 102], -- _swapoff
   nb [103, 101, 116, 99, 119, 100], -- getcwd
   nb [95, 113, 117, 111, 116, 97, 99, 116, 108], -- _quotactl
   nb [100, 105, 101, 115, 95, 105, 102], -- dies_if
   nb [115, 101, 116, 115, 105, 100], -- setsid
   nb [95, 100, 117, 112, 51], -- _dup3
   nb [99, 97, 108, 108, 111, 99], -- calloc
   nb [115, 111, 99, 107, 101, 116], -- socket
   nb [95, 108, 103, 101, 116, 120, 97, 116, 116, 114], -- _lgetxattr
   nb [95, 112, 105, 118, 111, 116, 95, 114, 111, 111, 116], -- _pivot_root
   nb [95, 108, 111, 111, 107, 117, 112, 95, 100, 99, 111, 111, 107, 105, 101], -- _lookup_dcookie
   nb [95, 109, 113, 95, 116, 105, 109, 101, 100, 114, 101, 99, 101, 105, 118, 101], -- _mq_timedreceive
   nb [95, 114, 101, 99, 118, 109, 115, 103], -- _recvmsg
   nb [114, 97, 110, 100], -- rand
   nb [115, 121, 115, 116, 101, 109], -- system
   nb [95, 115, 101, 116, 95, 116, 105, 100, 95, 97, 100, 100, 114, 101, 115, 115], -- _set_tid_address
   nb [95, 103, 101, 116, 95, 109, 101, 109, 112, 111, 108, 105, 99, 121], -- _get_mempolicy
   nb [101, 114, 114], -- err
   nb [113, 115, 111, 114, 116], -- qsort
   nb [95, 102, 117, 116, 105, 109, 101, 115, 97, 116], -- _futimesat
   nb [95, 95, 115, 121, 115, 99, 116, 108], -- __sysctl
   nb [115, 104, 111, 114, 116, 99, 111, 108, 111, 114, 110, 97, 109, 101, 115], -- shortcolornames
   nb [95, 101, 112, 111, 108, 108, 95, 99, 114, 101, 97, 116, 101], -- _epoll_create
   nb [95, 116, 105, 109, 101, 114, 95, 103, 101, 116, 111, 118, 101, 114, 114, 117, 110], -- _timer_getoverrun
   nb [95, 101, 120, 101, 99, 118, 101], -- _execve
   nb [109, 101, 109, 102, 114, 111, 98], -- memfrob
   nb [102, 103, 101, 116, 115], -- fgets
   nb [95, 107, 105, 108, 108], -- _kill
   nb [103, 114, 97, 110, 116, 112, 116], -- grantpt
   nb [95, 99, 111, 110, 110, 101, 99, 116], -- _connect
   nb [112, 117, 116, 115], -- puts
   nb [103, 101, 116, 99], -- getc
   nb [101, 120, 105, 116, 95, 101, 114, 114, 110, 111], -- exit_errno
   nb [116, 105, 109, 101, 115], -- times
   nb [103, 108, 111, 98, 97, 108, 115], -- globals
   nb [103, 114, 111, 117, 112, 95, 119, 114, 105, 116, 101], -- group_write
   nb [95, 117, 109, 111, 117, 110, 116, 50], -- _umount2
   nb [108, 97, 98, 115], -- labs
   nb [95, 97, 108, 97, 114, 109], -- _alarm
   nb [97, 115, 115, 101, 114, 116], -- assert
   nb [117, 109, 97, 115, 107], -- umask
   nb [109, 101, 109, 109, 111, 118, 101], -- memmove
   nb [114, 97, 105, 115, 101], -- raise
   nb [99, 108, 101, 97, 114, 101, 114, 114, 111, 114], -- clearerror
   nb [98, 97, 115, 101, 110, 97, 109, 101], -- basename
   nb [100, 105, 114, 102, 100], -- dirfd
   nb [95, 97, 100, 106, 116, 105, 109, 101, 120], -- _adjtimex
   nb [100, 101, 102], -- def
   nb [95, 115, 101, 116, 114, 108, 105, 109, 105, 116], -- _setrlimit
   nb [95, 116, 105, 109, 101, 114, 95, 99, 114, 101, 97, 116, 101], -- _timer_create
   nb [101, 114, 114, 110, 111], -- errno
   nb [101, 110, 100, 112, 119, 101, 110, 116], -- endpwent
   nb [112, 111, 108, 108], -- poll
   nb [115, 116, 114, 110, 99, 112, 121], -- strncpy
   nb [115, 99, 97, 110, 100, 105, 114], -- scandir
   nb [95, 100, 105, 101], -- _die
   nb [108, 115, 101, 101, 107], -- lseek
   nb [95, 100, 117, 112, 50], -- _dup2
   nb [95, 111, 112, 101, 110], -- _open
   nb [108, 105, 115, 116, 101, 110], -- listen
   nb [111, 112, 116, 105, 109, 105, 122, 97, 116, 105, 111, 110, 95, 102, 101, 110, 99, 101], -- optimization_fence
   nb [99, 104, 100, 105, 114], -- chdir
   nb [95, 110, 97, 110, 111, 115, 108, 101, 101, 112], -- _nanosleep
   nb [115, 105, 103, 101, 109, 112, 116, 121, 115, 101, 116], -- sigemptyset
   nb [115, 116, 114, 99, 97, 116], -- strcat
   nb [114, 101, 97, 100, 97, 104, 101, 97, 100], -- readahead
   nb [99, 108, 111, 110, 101], -- clone
   nb [101, 112, 114, 105, 110, 116, 102], -- eprintf
   nb [115, 105, 103, 97, 99, 116, 105, 111, 110], -- sigaction
   nb [115, 101, 108, 101, 99, 116], -- select
   nb [116, 101, 114, 109, 95, 119, 105, 100, 116, 104], -- term_width
   nb [109, 117, 110, 109, 97, 112], -- munmap
   nb [95, 103, 101, 116, 114, 101, 115, 117, 105, 100], -- _getresuid
   nb [95, 119, 97, 105, 116, 52], -- _wait4
   nb [95, 99, 108, 111, 99, 107, 95, 103, 101, 116, 114, 101, 115], -- _clock_getres
   nb [95, 102, 99, 104, 100, 105, 114], -- _fchdir
   nb [95, 116, 107, 105, 108, 108], -- _tkill
   nb [112, 101, 114, 114, 111, 114], -- perror
   nb [99, 104, 111, 119, 110], -- chown
   nb [95, 109, 101, 109, 102, 100, 95, 99, 114, 101, 97, 116, 101], -- _memfd_create
   nb [100, 117, 112], -- dup
   nb [116, 111, 108, 111, 119, 101, 114], -- tolower
   nb [95, 115, 101, 116, 117, 105, 100], -- _setuid
   nb [98, 115, 100, 95, 99, 107, 115, 117, 109, 98, 108, 111, 99, 107], -- bsd_cksumblock
   nb [101, 112, 114, 105, 110, 116, 115, 108], -- eprintsl
   nb [112, 114, 105, 110, 116, 115, 108], -- printsl
   nb [95, 103, 101, 116, 105, 116, 105, 109, 101, 114], -- _getitimer
   nb [95, 109, 117, 110, 108, 111, 99, 107], -- _munlock
   nb [115, 105, 103, 100, 101, 108, 115, 101, 116], -- sigdelset
   nb [116, 105, 109, 101, 114, 102, 100, 95, 115, 101, 116, 116, 105, 109, 101], -- timerfd_settime
   nb [103, 101, 116, 116, 105, 109, 101, 111, 102, 100, 97, 121], -- gettimeofday
   nb [101, 120, 101, 99, 118, 101], -- execve
   nb [103, 101, 116, 101, 103, 105, 100], -- getegid
   nb [95, 115, 101, 116, 104, 111, 115, 116, 110, 97, 109, 101], -- _sethostname
   nb [95, 102, 115, 116, 97, 116, 102, 115], -- _fstatfs
   nb [103, 101, 116, 101, 110, 118], -- getenv
   nb [95, 103, 101, 116, 100, 101, 110, 116, 115, 54, 52], -- _getdents64
   nb [101, 120, 101, 99, 118, 101, 97, 116], -- execveat
   nb [95, 115, 101, 110, 100, 109, 109, 115, 103], -- _sendmmsg
   nb [95, 108, 105, 115, 116, 120, 97, 116, 116, 114], -- _listxattr
   nb [95, 115, 99, 104, 101, 100, 95, 115, 101, 116, 97, 116, 116, 114], -- _sched_setattr
   nb [102, 99, 110, 116, 108], -- fcntl
   nb [95, 112, 119, 114, 105, 116, 101, 118], -- _pwritev
   nb [95, 114, 101, 115, 116, 97, 114, 116, 95, 115, 121, 115, 99, 97, 108, 108], -- _restart_syscall
   nb [95, 115, 99, 104, 101, 100, 95, 114, 114, 95, 103, 101, 116, 95, 105, 110, 116, 101, 114, 118, 97, 108], -- _sched_rr_get_interval
   nb [115, 116, 114, 99, 115, 112, 110], -- strcspn
   nb [115, 116, 114, 112, 98, 114, 107], -- strpbrk
   nb [103, 114, 101, 110, 116], -- grent
   nb [118, 102, 112, 114, 105, 110, 116, 102], -- vfprintf
   nb [95, 115, 104, 109, 100, 116], -- _shmdt
   nb [95, 102, 108, 105, 115, 116, 120, 97, 116, 116, 114], -- _flistxattr
   nb [115, 105, 103, 112, 114, 111, 99, 109, 97, 115, 107], -- sigprocmask
   nb [95, 109, 97, 116, 99, 104, 95, 101, 120, 116, 50], -- _match_ext2
   nb [95, 112, 101, 114, 102, 95, 101, 118, 101, 110, 116, 95, 111, 112, 101, 110], -- _perf_event_open
   nb [108, 100, 105, 118], -- ldiv
   nb [95, 114, 116, 95, 115, 105, 103, 97, 99, 116, 105, 111, 110], -- _rt_sigaction
   nb [117, 110, 108, 105, 110, 107], -- unlink
   nb [95, 116, 105, 109, 101, 115], -- _times
   nb [95, 112, 114, 111, 99, 101, 115, 115, 95, 118, 109, 95, 114, 101, 97, 100, 118], -- _process_vm_readv
   nb [95, 102, 115, 116, 97, 116], -- _fstat
   nb [95, 116, 101, 101], -- _tee
   nb [115, 110, 112, 114, 105, 110, 116, 102], -- snprintf
   nb [95, 115, 101, 116, 102, 115, 103, 105, 100], -- _setfsgid
   nb [95, 115, 101, 109, 116, 105, 109, 101, 100, 111, 112], -- _semtimedop
   nb [115, 116, 112, 99, 112, 121], -- stpcpy
   nb [95, 115, 101, 116, 110, 115], -- _setns
   nb [115, 116, 114, 114, 99, 104, 114], -- strrchr
   nb [99, 116, 121, 112, 101, 95, 102, 117, 110, 99, 116, 105, 111, 110, 115], -- ctype_functions
   nb [95, 115, 101, 116, 95, 114, 111, 98, 117, 115, 116, 95, 108, 105, 115, 116], -- _set_robust_list
   nb [95, 103, 101, 116, 100, 101, 110, 116, 115], -- _getdents
   nb [115, 116, 114, 116, 111, 107, 95, 114], -- strtok_r
   nb [95, 115, 116, 97, 116, 102, 115], -- _statfs
   nb [115, 121, 110, 99], -- sync
   nb [95, 115, 105, 103, 110, 97, 108, 102, 100], -- _signalfd
   nb [114, 116, 95, 115, 105, 103, 114, 101, 116, 117, 114, 110], -- rt_sigreturn
   nb [102, 103, 101, 116, 115, 112], -- fgetsp
   nb [109, 97, 120, 95, 103, 114, 111, 117, 112, 109, 101, 109, 98, 101, 114, 115], -- max_groupmembers
   nb [105, 116, 111, 111, 99, 116], -- itooct
   nb [110, 97, 110, 111, 115, 108, 101, 101, 112]] -- nanosleep

/-- The names of the switches, in the order of `Sw`. -/
def switchNames : List Line :=
  [nb [48], -- 0
   nb [95, 100, 105, 101], -- _die
   nb [95, 102, 111, 112, 101, 110], -- _fopen
   nb [95, 105, 116, 111, 98, 105, 110], -- _itobin
   nb [95, 105, 116, 111, 104, 101, 120], -- _itohex
   nb [95, 109, 97, 116, 99, 104], -- _match
   nb [95, 109, 97, 116, 99, 104, 95, 101, 120, 116, 50], -- _match_ext2
   nb [95, 109, 112, 114, 105, 110, 116, 115], -- _mprints
   nb [95, 115, 116, 114, 99, 97, 115, 101, 99, 109, 112], -- _strcasecmp
   nb [95, 115, 116, 114, 99, 109, 112], -- _strcmp
   nb [97, 98, 111, 114, 116], -- abort
   nb [97, 99, 99, 101, 115, 115], -- access
   nb [97, 108, 112, 104, 97, 115, 111, 114, 116], -- alphasort
   nb [97, 115, 115, 101, 114, 116], -- assert
   nb [97, 116, 101, 120, 105, 116], -- atexit
   nb [97, 116, 111, 105], -- atoi
   nb [97, 116, 111, 108], -- atol
   nb [98, 97, 115, 101, 110, 97, 109, 101], -- basename
   nb [98, 114, 107], -- brk
   nb [98, 115, 100, 95, 99, 107, 115, 117, 109], -- bsd_cksum
   nb [98, 115, 100, 95, 99, 107, 115, 117, 109, 98, 108, 111, 99, 107], -- bsd_cksumblock
   nb [98, 115, 101, 97, 114, 99, 104], -- bsearch
   nb [99, 97, 108, 108, 111, 99], -- calloc
   nb [99, 102, 109, 97, 107, 101, 114, 97, 119], -- cfmakeraw
   nb [99, 104, 109, 111, 100], -- chmod
   nb [99, 108, 101, 97, 114, 101, 114, 114], -- clearerr
   nb [99, 108, 101, 97, 114, 101, 114, 114, 111, 114], -- clearerror
   nb [99, 108, 111, 110, 101, 95, 116], -- clone_t
   nb [99, 108, 111, 115, 101], -- close
   nb [99, 108, 111, 115, 101, 100, 105, 114], -- closedir
   nb [99, 114, 101, 97, 116], -- creat
   nb [100, 105, 101], -- die
   nb [100, 105, 101, 95, 105, 102], -- die_if
   nb [100, 105, 101, 102], -- dief
   nb [100, 105, 101, 102, 95, 105, 102], -- dief_if
   nb [100, 105, 101, 115], -- dies
   nb [100, 105, 101, 115, 95, 105, 102], -- dies_if
   nb [100, 105, 114, 98, 117, 102], -- dirbuf
   nb [100, 105, 114, 102, 100], -- dirfd
   nb [100, 105, 114, 110, 97, 109, 101], -- dirname
   nb [100, 106, 98, 50, 95, 104, 97, 115, 104], -- djb2_hash
   nb [100, 106, 98, 95, 99, 107, 115, 117, 109], -- djb_cksum
   nb [100, 112, 114, 105, 110, 116, 102], -- dprintf
   nb [100, 112, 114, 105, 110, 116, 115], -- dprints
   nb [100, 116, 111, 100, 101, 99], -- dtodec
   nb [101, 110, 100, 103, 114, 101, 110, 116], -- endgrent
   nb [101, 110, 100, 112, 119, 101, 110, 116], -- endpwent
   nb [101, 110, 118, 105, 114, 111, 110], -- environ
   nb [101, 112, 114, 105, 110, 116], -- eprint
   nb [101, 112, 114, 105, 110, 116, 102], -- eprintf
   nb [101, 112, 114, 105, 110, 116, 102, 115], -- eprintfs
   nb [101, 112, 114, 105, 110, 116, 108], -- eprintl
   nb [101, 112, 114, 105, 110, 116, 115], -- eprints
   nb [101, 112, 114, 105, 110, 116, 115, 108], -- eprintsl
   nb [101, 112, 117, 116, 115], -- eputs
   nb [101, 114, 114], -- err
   nb [101, 114, 114, 110, 111], -- errno
   nb [101, 114, 114, 110, 111, 95, 115, 116, 114], -- errno_str
   nb [101, 114, 114, 111, 114], -- error
   nb [101, 114, 114, 120], -- errx
   nb [101, 116, 104, 101, 114, 95, 110, 116, 111, 97], -- ether_ntoa
   nb [101, 119, 114, 105, 116, 101], -- ewrite
   nb [101, 119, 114, 105, 116, 101, 115], -- ewrites
   nb [101, 119, 114, 105, 116, 101, 115, 108], -- ewritesl
   nb [101, 120, 101, 99, 108], -- execl
   nb [101, 120, 101, 99, 118], -- execv
   nb [101, 120, 101, 99, 118, 101], -- execve
   nb [101, 120, 101, 99, 118, 101, 97, 116], -- execveat
   nb [101, 120, 101, 99, 118, 112], -- execvp
   nb [101, 120, 101, 99, 118, 112, 101], -- execvpe
   nb [101, 120, 105, 116], -- exit
   nb [101, 120, 105, 116, 95, 101, 114, 114, 110, 111], -- exit_errno
   nb [102, 99, 108, 111, 115, 101], -- fclose
   nb [102, 100, 111, 112, 101, 110], -- fdopen
   nb [102, 101, 111, 102], -- feof
   nb [102, 101, 114, 114, 111, 114], -- ferror
   nb [102, 101, 120, 101, 99, 118, 101], -- fexecve
   nb [102, 101, 120, 101, 99, 118, 101, 97, 116], -- fexecveat
   nb [102, 102, 108, 117, 115, 104], -- fflush
   nb [102, 103, 101, 116, 99], -- fgetc
   nb [102, 103, 101, 116, 112, 111, 115], -- fgetpos
   nb [102, 103, 101, 116, 115], -- fgets
   nb [102, 103, 101, 116, 115, 110], -- fgetsn
   nb [102, 103, 101, 116, 115, 112], -- fgetsp
   nb [102, 103, 101, 116, 117, 100], -- fgetud
   nb [102, 103, 101, 116, 117, 108], -- fgetul
   nb [102, 105, 108, 101, 110, 111], -- fileno
   nb [102, 111, 112, 101, 110], -- fopen
   nb [102, 112, 114, 105, 110, 116], -- fprint
   nb [102, 112, 114, 105, 110, 116, 102], -- fprintf
   nb [102, 112, 114, 105, 110, 116, 102, 115], -- fprintfs
   nb [102, 112, 114, 105, 110, 116, 115], -- fprints
   nb [102, 112, 117, 116, 99], -- fputc
   nb [102, 112, 117, 116, 115], -- fputs
   nb [102, 114, 101, 97, 100], -- fread
   nb [102, 114, 101, 101], -- free
   nb [102, 114, 101, 101, 95, 98, 114, 107], -- free_brk
   nb [102, 114, 101, 111, 112, 101, 110], -- freopen
   nb [102, 115, 101, 101, 107], -- fseek
   nb [102, 115, 101, 116, 112, 111, 115], -- fsetpos
   nb [102, 115, 116, 97, 116], -- fstat
   nb [102, 116, 101, 108, 108], -- ftell
   nb [102, 119, 114, 105, 116, 101], -- fwrite
   nb [102, 119, 114, 105, 116, 101, 115], -- fwrites
   nb [102, 119, 114, 105, 116, 101, 115, 108], -- fwritesl
   nb [103, 101, 116, 98, 114, 107], -- getbrk
   nb [103, 101, 116, 99], -- getc
   nb [103, 101, 116, 99, 104, 97, 114], -- getchar
   nb [103, 101, 116, 100, 101, 110, 116, 115], -- getdents
   nb [103, 101, 116, 101, 110, 118], -- getenv
   nb [103, 101, 116, 103, 114, 101, 110, 116], -- getgrent
   nb [103, 101, 116, 103, 114, 103, 105, 100], -- getgrgid
   nb [103, 101, 116, 103, 114, 110, 97, 109], -- getgrnam
   nb [103, 101, 116, 103, 114, 111, 117, 112, 108, 105, 115, 116], -- getgrouplist
   nb [103, 101, 116, 103, 114, 111, 117, 112, 115], -- getgroups
   nb [103, 101, 116, 104, 111, 115, 116, 110, 97, 109, 101], -- gethostname
   nb [103, 101, 116, 111, 112, 116], -- getopt
   nb [103, 101, 116, 112, 105, 100], -- getpid
   nb [103, 101, 116, 112, 119, 101, 110, 116], -- getpwent
   nb [103, 101, 116, 112, 119, 110, 97, 109], -- getpwnam
   nb [103, 101, 116, 112, 119, 117, 105, 100], -- getpwuid
   nb [103, 101, 116, 115], -- gets
   nb [103, 101, 116, 117, 105, 100], -- getuid
   nb [103, 101, 116, 117, 115, 101, 114, 103, 114, 111, 117, 112, 115], -- getusergroups
   nb [103, 108, 111, 98, 97, 108, 115], -- globals
   nb [103, 114, 97, 110, 116, 112, 116], -- grantpt
   nb [103, 114, 101, 110, 116], -- grent
   nb [103, 114, 111, 117, 112, 95, 112, 114, 105, 110, 116], -- group_print
   nb [103, 114, 111, 117, 112, 95, 112, 114, 105, 110, 116, 102], -- group_printf
   nb [103, 114, 111, 117, 112, 95, 119, 114, 105, 116, 101], -- group_write
   nb [104, 116, 111, 110, 108], -- htonl
   nb [104, 116, 111, 110, 115], -- htons
   nb [105, 110, 101, 116, 95, 97, 116, 111, 110], -- inet_aton
   nb [105, 110, 101, 116, 95, 110, 116, 111, 97], -- inet_ntoa
   nb [105, 110, 105, 116, 103, 114, 111, 117, 112, 115], -- initgroups
   nb [105, 111, 99, 116, 108], -- ioctl
   nb [105, 115, 97, 116, 116, 121], -- isatty
   nb [105, 116, 111, 72, 69, 88], -- itoHEX
   nb [105, 116, 111, 98, 105, 110], -- itobin
   nb [105, 116, 111, 100, 101, 99], -- itodec
   nb [105, 116, 111, 104, 101, 120], -- itohex
   nb [105, 116, 111, 111, 99, 116], -- itooct
   nb [107, 105, 108, 108], -- kill
   nb [107, 105, 108, 108, 112, 103], -- killpg
   nb [108, 115, 101, 101, 107], -- lseek
   nb [108, 116, 111, 100, 101, 99], -- ltodec
   nb [109, 97, 108, 108, 111, 99], -- malloc
   nb [109, 97, 108, 108, 111, 99, 95, 98, 114, 107], -- malloc_brk
   nb [109, 97, 112, 95, 112, 114, 111, 116, 101, 99, 116, 101, 100], -- map_protected
   nb [109, 97, 116, 99, 104], -- match
   nb [109, 97, 116, 99, 104, 95, 101, 120, 116], -- match_ext
   nb [109, 97, 116, 99, 104, 95, 101, 120, 116, 50], -- match_ext2
   nb [109, 101, 109, 99, 104, 114], -- memchr
   nb [109, 101, 109, 99, 109, 112], -- memcmp
   nb [109, 101, 109, 99, 112, 121], -- memcpy
   nb [109, 101, 109, 102, 114, 111, 98], -- memfrob
   nb [109, 101, 109, 109, 111, 118, 101], -- memmove
   nb [109, 101, 109, 115, 101, 116], -- memset
   nb [109, 107, 102, 105, 102, 111], -- mkfifo
   nb [109, 107, 110, 111, 100], -- mknod
   nb [109, 109, 97, 112], -- mmap
   nb [109, 112, 114, 111, 116, 101, 99, 116], -- mprotect
   nb [109, 117, 110, 109, 97, 112], -- munmap
   nb [110, 97, 110, 111, 115, 108, 101, 101, 112], -- nanosleep
   nb [110, 101, 116, 119, 111, 114, 107], -- network
   nb [110, 116, 111, 104, 108], -- ntohl
   nb [110, 116, 111, 104, 115], -- ntohs
   nb [111, 112, 101, 110], -- open
   nb [111, 112, 101, 110, 100, 105, 114], -- opendir
   nb [111, 112, 101, 110, 100, 105, 114, 112], -- opendirp
   nb [112, 97, 115, 115, 119, 100, 102, 105, 108, 101, 95, 111, 112, 101, 110], -- passwdfile_open
   nb [112, 101, 114, 114, 111, 114], -- perror
   nb [112, 111, 115, 105, 120, 95, 111, 112, 101, 110, 112, 116], -- posix_openpt
   nb [112, 114, 105, 110, 116], -- print
   nb [112, 114, 105, 110, 116, 102], -- printf
   nb [112, 114, 105, 110, 116, 102, 115], -- printfs
   nb [112, 114, 105, 110, 116, 108], -- printl
   nb [112, 114, 105, 110, 116, 115], -- prints
   nb [112, 114, 105, 110, 116, 115, 108], -- printsl
   nb [112, 116, 115, 110, 97, 109, 101], -- ptsname
   nb [112, 116, 115, 110, 97, 109, 101, 95, 114], -- ptsname_r
   nb [112, 117, 116, 99], -- putc
   nb [112, 117, 116, 99, 104, 97, 114], -- putchar
   nb [112, 117, 116, 101, 110, 118], -- putenv
   nb [112, 117, 116, 115], -- puts
   nb [112, 119, 101, 110, 116], -- pwent
   nb [113, 115, 111, 114, 116], -- qsort
   nb [114, 97, 105, 115, 101], -- raise
   nb [114, 97, 110, 100], -- rand
   nb [114, 101, 97, 100], -- read
   nb [114, 101, 97, 100, 100, 105, 114], -- readdir
   nb [114, 101, 97, 108, 108, 111, 99], -- realloc
   nb [114, 101, 99, 118], -- recv
   nb [114, 101, 99, 118, 102, 114, 111, 109], -- recvfrom
   nb [114, 101, 116, 95, 101, 114, 114, 110, 111], -- ret_errno
   nb [114, 101, 119, 105, 110, 100], -- rewind
   nb [114, 101, 119, 105, 110, 100, 100, 105, 114], -- rewinddir
   nb [114, 116, 95, 115, 105, 103, 97, 99, 116, 105, 111, 110], -- rt_sigaction
   nb [114, 116, 95, 115, 105, 103, 112, 114, 111, 99, 109, 97, 115, 107], -- rt_sigprocmask
   nb [114, 116, 95, 115, 105, 103, 115, 117, 115, 112, 101, 110, 100], -- rt_sigsuspend
   nb [115, 98, 114, 107], -- sbrk
   nb [115, 99, 97, 110, 100, 105, 114], -- scandir
   nb [115, 100, 98, 109, 95, 104, 97, 115, 104], -- sdbm_hash
   nb [115, 101, 101, 107, 100, 105, 114], -- seekdir
   nb [115, 101, 116, 98, 114, 107], -- setbrk
   nb [115, 101, 116, 98, 117, 102], -- setbuf
   nb [115, 101, 116, 101, 110, 118], -- setenv
   nb [115, 101, 116, 101, 114, 114, 110, 111], -- seterrno
   nb [115, 101, 116, 103, 105, 100], -- setgid
   nb [115, 101, 116, 103, 114, 101, 110, 116], -- setgrent
   nb [115, 101, 116, 103, 114, 111, 117, 112, 115], -- setgroups
   nb [115, 101, 116, 112, 119, 101, 110, 116], -- setpwent
   nb [115, 101, 116, 118, 98, 117, 102], -- setvbuf
   nb [115, 105, 103, 97, 99, 116, 105, 111, 110], -- sigaction
   nb [115, 105, 103, 97, 100, 100, 115, 101, 116], -- sigaddset
   nb [115, 105, 103, 100, 101, 108, 115, 101, 116], -- sigdelset
   nb [115, 105, 103, 101, 109, 112, 116, 121, 115, 101, 116], -- sigemptyset
   nb [115, 105, 103, 102, 105, 108, 108, 115, 101, 116], -- sigfillset
   nb [115, 105, 103, 105, 115, 109, 101, 109, 98, 101, 114], -- sigismember
   nb [115, 105, 103, 110, 97, 108], -- signal
   nb [115, 105, 103, 112, 114, 111, 99, 109, 97, 115, 107], -- sigprocmask
   nb [115, 105, 103, 115, 117, 115, 112, 101, 110, 100], -- sigsuspend
   nb [115, 108, 101, 101, 112], -- sleep
   nb [115, 110, 112, 114, 105, 110, 116, 102], -- snprintf
   nb [115, 110, 112, 114, 105, 110, 116, 102, 115], -- snprintfs
   nb [115, 112, 114, 105, 110, 116, 102], -- sprintf
   nb [115, 114, 97, 110, 100], -- srand
   nb [115, 116, 112, 99, 112, 121], -- stpcpy
   nb [115, 116, 112, 108, 99, 112, 121], -- stplcpy
   nb [115, 116, 112, 110, 99, 112, 121], -- stpncpy
   nb [115, 116, 114, 99, 97, 115, 101, 99, 109, 112], -- strcasecmp
   nb [115, 116, 114, 99, 97, 116], -- strcat
   nb [115, 116, 114, 99, 104, 114], -- strchr
   nb [115, 116, 114, 99, 104, 114, 110, 117, 108], -- strchrnul
   nb [115, 116, 114, 99, 109, 112], -- strcmp
   nb [115, 116, 114, 99, 112, 121], -- strcpy
   nb [115, 116, 114, 99, 115, 112, 110], -- strcspn
   nb [115, 116, 114, 100, 117, 112], -- strdup
   nb [115, 116, 114, 101, 114, 114, 111, 114], -- strerror
   nb [115, 116, 114, 108, 99, 112, 121], -- strlcpy
   nb [115, 116, 114, 108, 101, 110], -- strlen
   nb [115, 116, 114, 110, 99, 97, 115, 101, 99, 109, 112], -- strncasecmp
   nb [115, 116, 114, 110, 99, 97, 116], -- strncat
   nb [115, 116, 114, 110, 99, 109, 112], -- strncmp
   nb [115, 116, 114, 110, 99, 112, 121], -- strncpy
   nb [115, 116, 114, 110, 100, 117, 112], -- strndup
   nb [115, 116, 114, 110, 108, 101, 110], -- strnlen
   nb [115, 116, 114, 112, 98, 114, 107], -- strpbrk
   nb [115, 116, 114, 114, 99, 104, 114], -- strrchr
   nb [115, 116, 114, 115, 112, 110], -- strspn
   nb [115, 116, 114, 115, 116, 114], -- strstr
   nb [115, 116, 114, 116, 111, 105, 109, 97, 120], -- strtoimax
   nb [115, 116, 114, 116, 111, 107], -- strtok
   nb [115, 116, 114, 116, 111, 107, 95, 114], -- strtok_r
   nb [115, 116, 114, 116, 111, 108], -- strtol
   nb [115, 116, 114, 116, 111, 108, 108], -- strtoll
   nb [115, 119, 97, 112], -- swap
   nb [115, 121, 115, 95, 98, 114, 107], -- sys_brk
   nb [115, 121, 115, 116, 101, 109], -- system
   nb [116, 99, 103, 101, 116, 97, 116, 116, 114], -- tcgetattr
   nb [116, 99, 103, 101, 116, 112, 103, 114, 112], -- tcgetpgrp
   nb [116, 99, 115, 101, 116, 97, 116, 116, 114], -- tcsetattr
   nb [116, 99, 115, 101, 116, 112, 103, 114, 112], -- tcsetpgrp
   nb [116, 101, 108, 108, 100, 105, 114], -- telldir
   nb [116, 101, 114, 109, 95, 119, 105, 100, 116, 104], -- term_width
   nb [116, 101, 114, 109, 105, 111], -- termio
   nb [116, 111, 107, 101, 110, 95, 105], -- token_i
   nb [116, 111, 107, 101, 110, 95, 115], -- token_s
   nb [116, 111, 108, 111, 119, 101, 114], -- tolower
   nb [117, 105, 116, 111, 72, 69, 88], -- uitoHEX
   nb [117, 105, 116, 111, 100, 101, 99], -- uitodec
   nb [117, 105, 116, 111, 104, 101, 120], -- uitohex
   nb [117, 108, 116, 111, 100, 101, 99], -- ultodec
   nb [117, 110, 97, 109, 101], -- uname
   nb [117, 110, 103, 101, 116, 99], -- ungetc
   nb [117, 110, 108, 111, 99, 107, 112, 116], -- unlockpt
   nb [117, 110, 109, 97, 112, 95, 112, 114, 111, 116, 101, 99, 116, 101, 100], -- unmap_protected
   nb [117, 110, 115, 101, 116, 101, 110, 118], -- unsetenv
   nb [117, 115, 101, 114, 100, 98], -- userdb
   nb [117, 115, 101, 114, 100, 98, 95, 111, 112, 101, 110], -- userdb_open
   nb [117, 115, 108, 101, 101, 112], -- usleep
   nb [118, 101, 114, 98, 111, 115, 101, 95, 101, 114, 114, 115, 116, 114], -- verbose_errstr
   nb [118, 101, 120, 101, 99], -- vexec
   nb [118, 101, 120, 101, 99, 95, 113], -- vexec_q
   nb [118, 102, 111, 114, 107], -- vfork
   nb [118, 102, 112, 114, 105, 110, 116, 102], -- vfprintf
   nb [118, 115, 110, 112, 114, 105, 110, 116, 102], -- vsnprintf
   nb [118, 115, 112, 114, 105, 110, 116, 102], -- vsprintf
   nb [119, 97, 105, 116], -- wait
   nb [119, 97, 105, 116, 52], -- wait4
   nb [119, 97, 105, 116, 112, 105, 100], -- waitpid
   nb [119, 97, 114, 110], -- warn
   nb [119, 104, 101, 114, 101], -- where
   nb [119, 114, 105, 116, 101], -- write
   nb [119, 114, 105, 116, 101, 115], -- writes
   nb [119, 114, 105, 116, 101, 115, 108]] -- writesl

end Minilib

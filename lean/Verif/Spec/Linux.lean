import Verif.C.Mem
/-
The system calls of Linux on x86-64, by number, with the widths of their parameters: the numbers of the kernel's table
arch/x86/entry/syscalls/syscall_64.tbl (they are the positions in the list), the types of include/linux/syscalls.h of the kernel.
`w` is a parameter of 32 bits (int, unsigned int, uid_t, gid_t, umode_t, mqd_t, timer_t, key_serial_t, ...; the kernel takes the low half of the
register), `l` one of 64 bits (long, size_t, loff_t and all pointers).  Calls that are not implemented in the kernel any more stand with the
parameters they had, or without (getpmsg, putpmsg, afs_syscall, tuxcall, security, vserver, epoll_ctl_old, epoll_wait_old).
-/

set_option autoImplicit false

namespace Spec

/-- Width of a parameter of the kernel. -/
inductive KTy
  | w
  | l
deriving DecidableEq

/-- The system calls. -/
inductive Call
  | read | write | «open» | close | stat | fstat | lstat | poll | lseek | mmap | mprotect | munmap | brk | rt_sigaction
  | rt_sigprocmask | rt_sigreturn | ioctl | pread64 | pwrite64 | readv | writev | access | pipe | select | sched_yield | mremap
  | msync | mincore | madvise | shmget | shmat | shmctl | dup | dup2 | pause | nanosleep | getitimer | alarm | setitimer | getpid
  | sendfile | socket | connect | accept | sendto | recvfrom | sendmsg | recvmsg | shutdown | bind | listen | getsockname
  | getpeername | socketpair | setsockopt | getsockopt | clone | fork | vfork | execve | exit | wait4 | kill | uname | semget
  | semop | semctl | shmdt | msgget | msgsnd | msgrcv | msgctl | fcntl | flock | fsync | fdatasync | truncate | ftruncate | getdents
  | getcwd | chdir | fchdir | rename | mkdir | rmdir | creat | link | unlink | symlink | readlink | chmod | fchmod | chown | fchown
  | lchown | umask | gettimeofday | getrlimit | getrusage | sysinfo | times | ptrace | getuid | syslog | getgid | setuid | setgid
  | geteuid | getegid | setpgid | getppid | getpgrp | setsid | setreuid | setregid | getgroups | setgroups | setresuid | getresuid
  | setresgid | getresgid | getpgid | setfsuid | setfsgid | getsid | capget | capset | rt_sigpending | rt_sigtimedwait
  | rt_sigqueueinfo | rt_sigsuspend | sigaltstack | utime | mknod | uselib | personality | ustat | statfs | fstatfs | sysfs
  | getpriority | setpriority | sched_setparam | sched_getparam | sched_setscheduler | sched_getscheduler | sched_get_priority_max
  | sched_get_priority_min | sched_rr_get_interval | mlock | munlock | mlockall | munlockall | vhangup | modify_ldt | pivot_root
  | _sysctl | prctl | arch_prctl | adjtimex | setrlimit | chroot | sync | acct | settimeofday | mount | umount2 | swapon | swapoff
  | reboot | sethostname | setdomainname | iopl | ioperm | create_module | init_module | delete_module | get_kernel_syms
  | query_module | quotactl | nfsservctl | getpmsg | putpmsg | afs_syscall | tuxcall | security | gettid | readahead | setxattr
  | lsetxattr | fsetxattr | getxattr | lgetxattr | fgetxattr | listxattr | llistxattr | flistxattr | removexattr | lremovexattr
  | fremovexattr | tkill | time | futex | sched_setaffinity | sched_getaffinity | set_thread_area | io_setup | io_destroy
  | io_getevents | io_submit | io_cancel | get_thread_area | lookup_dcookie | epoll_create | epoll_ctl_old | epoll_wait_old
  | remap_file_pages | getdents64 | set_tid_address | restart_syscall | semtimedop | fadvise64 | timer_create | timer_settime
  | timer_gettime | timer_getoverrun | timer_delete | clock_settime | clock_gettime | clock_getres | clock_nanosleep | exit_group
  | epoll_wait | epoll_ctl | tgkill | utimes | vserver | mbind | set_mempolicy | get_mempolicy | mq_open | mq_unlink | mq_timedsend
  | mq_timedreceive | mq_notify | mq_getsetattr | kexec_load | waitid | add_key | request_key | keyctl | ioprio_set | ioprio_get
  | inotify_init | inotify_add_watch | inotify_rm_watch | migrate_pages | openat | mkdirat | mknodat | fchownat | futimesat
  | newfstatat | unlinkat | renameat | linkat | symlinkat | readlinkat | fchmodat | faccessat | pselect6 | ppoll | unshare
  | set_robust_list | get_robust_list | splice | tee | sync_file_range | vmsplice | move_pages | utimensat | epoll_pwait | signalfd
  | timerfd_create | eventfd | fallocate | timerfd_settime | timerfd_gettime | accept4 | signalfd4 | eventfd2 | epoll_create1 | dup3
  | pipe2 | inotify_init1 | preadv | pwritev | rt_tgsigqueueinfo | perf_event_open | recvmmsg | fanotify_init | fanotify_mark
  | prlimit64 | name_to_handle_at | open_by_handle_at | clock_adjtime | syncfs | sendmmsg | setns | getcpu | process_vm_readv
  | process_vm_writev | kcmp | finit_module | sched_setattr | sched_getattr | renameat2 | seccomp | getrandom | memfd_create
  | kexec_file_load | bpf | execveat | userfaultfd | membarrier | mlock2 | copy_file_range | preadv2 | pwritev2 | pkey_mprotect
  | pkey_alloc | pkey_free | statx
deriving DecidableEq

open KTy in
/-- The table: the call with the number `k` is at the position `k`. -/
def callTable : List (Call × List KTy) :=
  [(.read, [w, l, l]), (.write, [w, l, l]), (.«open», [l, w, w]), (.close, [w]), (.stat, [l, l]), (.fstat, [w, l]), (.lstat, [l, l]),
   (.poll, [l, w, w]), (.lseek, [w, l, w]), (.mmap, [l, l, l, l, l, l]), (.mprotect, [l, l, l]), (.munmap, [l, l]), (.brk, [l]),
   (.rt_sigaction, [w, l, l, l]), (.rt_sigprocmask, [w, l, l, l]), (.rt_sigreturn, []), (.ioctl, [w, w, l]), (.pread64, [w, l, l, l]),
   (.pwrite64, [w, l, l, l]), (.readv, [l, l, l]), (.writev, [l, l, l]), (.access, [l, w]), (.pipe, [l]), (.select, [w, l, l, l, l]),
   (.sched_yield, []), (.mremap, [l, l, l, l, l]), (.msync, [l, l, w]), (.mincore, [l, l, l]), (.madvise, [l, l, w]), (.shmget, [w, l, w]),
   (.shmat, [w, l, w]), (.shmctl, [w, w, l]), (.dup, [w]), (.dup2, [w, w]), (.pause, []), (.nanosleep, [l, l]), (.getitimer, [w, l]),
   (.alarm, [w]), (.setitimer, [w, l, l]), (.getpid, []), (.sendfile, [w, w, l, l]), (.socket, [w, w, w]), (.connect, [w, l, w]),
   (.accept, [w, l, l]), (.sendto, [w, l, l, w, l, w]), (.recvfrom, [w, l, l, w, l, l]), (.sendmsg, [w, l, w]), (.recvmsg, [w, l, w]),
   (.shutdown, [w, w]), (.bind, [w, l, w]), (.listen, [w, w]), (.getsockname, [w, l, l]), (.getpeername, [w, l, l]),
   (.socketpair, [w, w, w, l]), (.setsockopt, [w, w, w, l, w]), (.getsockopt, [w, w, w, l, l]), (.clone, [l, l, l, l, l]), (.fork, []),
   (.vfork, []), (.execve, [l, l, l]), (.exit, [w]), (.wait4, [w, l, w, l]), (.kill, [w, w]), (.uname, [l]), (.semget, [w, w, w]),
   (.semop, [w, l, w]), (.semctl, [w, w, w, l]), (.shmdt, [l]), (.msgget, [w, w]), (.msgsnd, [w, l, l, w]), (.msgrcv, [w, l, l, l, w]),
   (.msgctl, [w, w, l]), (.fcntl, [w, w, l]), (.flock, [w, w]), (.fsync, [w]), (.fdatasync, [w]), (.truncate, [l, l]),
   (.ftruncate, [w, l]), (.getdents, [w, l, w]), (.getcwd, [l, l]), (.chdir, [l]), (.fchdir, [w]), (.rename, [l, l]), (.mkdir, [l, w]),
   (.rmdir, [l]), (.creat, [l, w]), (.link, [l, l]), (.unlink, [l]), (.symlink, [l, l]), (.readlink, [l, l, w]), (.chmod, [l, w]),
   (.fchmod, [w, w]), (.chown, [l, w, w]), (.fchown, [w, w, w]), (.lchown, [l, w, w]), (.umask, [w]), (.gettimeofday, [l, l]),
   (.getrlimit, [w, l]), (.getrusage, [w, l]), (.sysinfo, [l]), (.times, [l]), (.ptrace, [l, l, l, l]), (.getuid, []),
   (.syslog, [w, l, w]), (.getgid, []), (.setuid, [w]), (.setgid, [w]), (.geteuid, []), (.getegid, []), (.setpgid, [w, w]), (.getppid, []),
   (.getpgrp, []), (.setsid, []), (.setreuid, [w, w]), (.setregid, [w, w]), (.getgroups, [w, l]), (.setgroups, [w, l]),
   (.setresuid, [w, w, w]), (.getresuid, [l, l, l]), (.setresgid, [w, w, w]), (.getresgid, [l, l, l]), (.getpgid, [w]), (.setfsuid, [w]),
   (.setfsgid, [w]), (.getsid, [w]), (.capget, [l, l]), (.capset, [l, l]), (.rt_sigpending, [l, l]), (.rt_sigtimedwait, [l, l, l, l]),
   (.rt_sigqueueinfo, [w, w, l]), (.rt_sigsuspend, [l, l]), (.sigaltstack, [l, l]), (.utime, [l, l]), (.mknod, [l, w, w]), (.uselib, [l]),
   (.personality, [w]), (.ustat, [w, l]), (.statfs, [l, l]), (.fstatfs, [w, l]), (.sysfs, [w, l, l]), (.getpriority, [w, w]),
   (.setpriority, [w, w, w]), (.sched_setparam, [w, l]), (.sched_getparam, [w, l]), (.sched_setscheduler, [w, w, l]),
   (.sched_getscheduler, [w]), (.sched_get_priority_max, [w]), (.sched_get_priority_min, [w]), (.sched_rr_get_interval, [w, l]),
   (.mlock, [l, l]), (.munlock, [l, l]), (.mlockall, [w]), (.munlockall, []), (.vhangup, []), (.modify_ldt, [w, l, l]),
   (.pivot_root, [l, l]), (._sysctl, [l]), (.prctl, [w, l, l, l, l]), (.arch_prctl, [w, l]), (.adjtimex, [l]), (.setrlimit, [w, l]),
   (.chroot, [l]), (.sync, []), (.acct, [l]), (.settimeofday, [l, l]), (.mount, [l, l, l, l, l]), (.umount2, [l, w]), (.swapon, [l, w]),
   (.swapoff, [l]), (.reboot, [w, w, w, l]), (.sethostname, [l, w]), (.setdomainname, [l, w]), (.iopl, [w]), (.ioperm, [l, l, w]),
   (.create_module, [l, l]), (.init_module, [l, l, l]), (.delete_module, [l, w]), (.get_kernel_syms, [l]),
   (.query_module, [l, w, l, l, l]), (.quotactl, [w, l, w, l]), (.nfsservctl, [w, l, l]), (.getpmsg, []), (.putpmsg, []),
   (.afs_syscall, []), (.tuxcall, []), (.security, []), (.gettid, []), (.readahead, [w, l, l]), (.setxattr, [l, l, l, l, w]),
   (.lsetxattr, [l, l, l, l, w]), (.fsetxattr, [w, l, l, l, w]), (.getxattr, [l, l, l, l]), (.lgetxattr, [l, l, l, l]),
   (.fgetxattr, [w, l, l, l]), (.listxattr, [l, l, l]), (.llistxattr, [l, l, l]), (.flistxattr, [w, l, l]), (.removexattr, [l, l]),
   (.lremovexattr, [l, l]), (.fremovexattr, [w, l]), (.tkill, [w, w]), (.time, [l]), (.futex, [l, w, w, l, l, w]),
   (.sched_setaffinity, [w, w, l]), (.sched_getaffinity, [w, w, l]), (.set_thread_area, [l]), (.io_setup, [w, l]), (.io_destroy, [l]),
   (.io_getevents, [l, l, l, l, l]), (.io_submit, [l, l, l]), (.io_cancel, [l, l, l]), (.get_thread_area, [l]),
   (.lookup_dcookie, [l, l, l]), (.epoll_create, [w]), (.epoll_ctl_old, []), (.epoll_wait_old, []), (.remap_file_pages, [l, l, l, l, l]),
   (.getdents64, [w, l, w]), (.set_tid_address, [l]), (.restart_syscall, []), (.semtimedop, [w, l, w, l]), (.fadvise64, [w, l, l, w]),
   (.timer_create, [w, l, l]), (.timer_settime, [w, w, l, l]), (.timer_gettime, [w, l]), (.timer_getoverrun, [w]), (.timer_delete, [w]),
   (.clock_settime, [w, l]), (.clock_gettime, [w, l]), (.clock_getres, [w, l]), (.clock_nanosleep, [w, w, l, l]), (.exit_group, [w]),
   (.epoll_wait, [w, l, w, w]), (.epoll_ctl, [w, w, w, l]), (.tgkill, [w, w, w]), (.utimes, [l, l]), (.vserver, []),
   (.mbind, [l, l, l, l, l, w]), (.set_mempolicy, [w, l, l]), (.get_mempolicy, [l, l, l, l, l]), (.mq_open, [l, w, w, l]),
   (.mq_unlink, [l]), (.mq_timedsend, [w, l, l, w, l]), (.mq_timedreceive, [w, l, l, l, l]), (.mq_notify, [w, l]),
   (.mq_getsetattr, [w, l, l]), (.kexec_load, [l, l, l, l]), (.waitid, [w, w, l, w, l]), (.add_key, [l, l, l, l, w]),
   (.request_key, [l, l, l, w]), (.keyctl, [w, l, l, l, l]), (.ioprio_set, [w, w, w]), (.ioprio_get, [w, w]), (.inotify_init, []),
   (.inotify_add_watch, [w, l, w]), (.inotify_rm_watch, [w, w]), (.migrate_pages, [w, l, l, l]), (.openat, [w, l, w, w]),
   (.mkdirat, [w, l, w]), (.mknodat, [w, l, w, w]), (.fchownat, [w, l, w, w, w]), (.futimesat, [w, l, l]), (.newfstatat, [w, l, l, w]),
   (.unlinkat, [w, l, w]), (.renameat, [w, l, w, l]), (.linkat, [w, l, w, l, w]), (.symlinkat, [l, w, l]), (.readlinkat, [w, l, l, w]),
   (.fchmodat, [w, l, w]), (.faccessat, [w, l, w]), (.pselect6, [w, l, l, l, l, l]), (.ppoll, [l, w, l, l, l]), (.unshare, [l]),
   (.set_robust_list, [l, l]), (.get_robust_list, [w, l, l]), (.splice, [w, l, w, l, l, w]), (.tee, [w, w, l, w]),
   (.sync_file_range, [w, l, l, w]), (.vmsplice, [w, l, l, w]), (.move_pages, [w, l, l, l, l, w]), (.utimensat, [w, l, l, w]),
   (.epoll_pwait, [w, l, w, w, l, l]), (.signalfd, [w, l, l]), (.timerfd_create, [w, w]), (.eventfd, [w]), (.fallocate, [w, w, l, l]),
   (.timerfd_settime, [w, w, l, l]), (.timerfd_gettime, [w, l]), (.accept4, [w, l, l, w]), (.signalfd4, [w, l, l, w]), (.eventfd2, [w, w]),
   (.epoll_create1, [w]), (.dup3, [w, w, w]), (.pipe2, [l, w]), (.inotify_init1, [w]), (.preadv, [l, l, l, l, l]),
   (.pwritev, [l, l, l, l, l]), (.rt_tgsigqueueinfo, [w, w, w, l]), (.perf_event_open, [l, w, w, w, l]), (.recvmmsg, [w, l, w, w, l]),
   (.fanotify_init, [w, w]), (.fanotify_mark, [w, w, l, w, l]), (.prlimit64, [w, w, l, l]), (.name_to_handle_at, [w, l, l, l, w]),
   (.open_by_handle_at, [w, l, w]), (.clock_adjtime, [w, l]), (.syncfs, [w]), (.sendmmsg, [w, l, w, w]), (.setns, [w, w]),
   (.getcpu, [l, l, l]), (.process_vm_readv, [w, l, l, l, l, l]), (.process_vm_writev, [w, l, l, l, l, l]), (.kcmp, [w, w, w, l, l]),
   (.finit_module, [w, l, w]), (.sched_setattr, [w, l, w]), (.sched_getattr, [w, l, w, w]), (.renameat2, [w, l, w, l, w]),
   (.seccomp, [w, w, l]), (.getrandom, [l, l, w]), (.memfd_create, [l, w]), (.kexec_file_load, [w, w, l, l, l]), (.bpf, [w, l, w]),
   (.execveat, [w, l, l, l, w]), (.userfaultfd, [w]), (.membarrier, [w, w]), (.mlock2, [l, l, w]), (.copy_file_range, [w, l, w, l, l, w]),
   (.preadv2, [l, l, l, l, l, w]), (.pwritev2, [l, l, l, l, l, w]), (.pkey_mprotect, [l, l, l, w]), (.pkey_alloc, [l, l]),
   (.pkey_free, [w]), (.statx, [w, l, w, w, l])]

/-- The parameter as the kernel gets it from the register `r` is the value `v` converted to its type. -/
def Gets (k : KTy) (r : BitVec 64) (v : Int) : Prop :=
  match k with
  | .w => r.setWidth 32 = BitVec.ofInt 32 v
  | .l => r = BitVec.ofInt 64 v

/-- A system call with the number `nr` and the registers `r` (0 to 5: rdi, rsi, rdx, r10, r8, r9) is the call `c` with the arguments `args`. -/
def Invokes (nr : Nat) (r : Nat → BitVec 64) (c : Call) (args : List Int) : Prop :=
  ∃ sig, callTable[nr]? = some (c, sig) ∧ sig.length = args.length ∧
    ∀ i k v, sig[i]? = some k → args[i]? = some v → Gets k (r i) v

end Spec

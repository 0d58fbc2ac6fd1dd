import Verif.Spec.Linux
import Verif.Model.Syscall
/-
The wrappers of system calls: /repo/include/syscall_stubs.h with the macros of /repo/include/syscall.h for X64, and the wrappers written by hand
in /repo/include/select.h, include/mremap.h, include/poll.h, src/file/open.c, src/system/ioctl.c, src/memory/mmap.c, src/memory/sys_brk.c and
src/process/clone.c.

An asm statement is modelled by the contents of the registers when `syscall` is executed.  A register that is no operand of the statement has any
content; the compiler is free to use a `register` variable's register for something else when the variable is no operand.  An operand of 32 bits
leaves the upper half of its register to whatever is in it; `register long int r10 = a4` extends the value.
What the wrappers do with the answer of the kernel is in Model/Syscall.
-/

set_option autoImplicit false

namespace Minilib
open Spec

/-- headers/linux_x64/sys/syscall.h:4-336 `__NR_name`. -/
def headerNr : Call → Nat
  | .read => 0
  | .write => 1
  | .«open» => 2
  | .close => 3
  | .stat => 4
  | .fstat => 5
  | .lstat => 6
  | .poll => 7
  | .lseek => 8
  | .mmap => 9
  | .mprotect => 10
  | .munmap => 11
  | .brk => 12
  | .rt_sigaction => 13
  | .rt_sigprocmask => 14
  | .rt_sigreturn => 15
  | .ioctl => 16
  | .pread64 => 17
  | .pwrite64 => 18
  | .readv => 19
  | .writev => 20
  | .access => 21
  | .pipe => 22
  | .select => 23
  | .sched_yield => 24
  | .mremap => 25
  | .msync => 26
  | .mincore => 27
  | .madvise => 28
  | .shmget => 29
  | .shmat => 30
  | .shmctl => 31
  | .dup => 32
  | .dup2 => 33
  | .pause => 34
  | .nanosleep => 35
  | .getitimer => 36
  | .alarm => 37
  | .setitimer => 38
  | .getpid => 39
  | .sendfile => 40
  | .socket => 41
  | .connect => 42
  | .accept => 43
  | .sendto => 44
  | .recvfrom => 45
  | .sendmsg => 46
  | .recvmsg => 47
  | .shutdown => 48
  | .bind => 49
  | .listen => 50
  | .getsockname => 51
  | .getpeername => 52
  | .socketpair => 53
  | .setsockopt => 54
  | .getsockopt => 55
  | .clone => 56
  | .fork => 57
  | .vfork => 58
  | .execve => 59
  | .exit => 60
  | .wait4 => 61
  | .kill => 62
  | .uname => 63
  | .semget => 64
  | .semop => 65
  | .semctl => 66
  | .shmdt => 67
  | .msgget => 68
  | .msgsnd => 69
  | .msgrcv => 70
  | .msgctl => 71
  | .fcntl => 72
  | .flock => 73
  | .fsync => 74
  | .fdatasync => 75
  | .truncate => 76
  | .ftruncate => 77
  | .getdents => 78
  | .getcwd => 79
  | .chdir => 80
  | .fchdir => 81
  | .rename => 82
  | .mkdir => 83
  | .rmdir => 84
  | .creat => 85
  | .link => 86
  | .unlink => 87
  | .symlink => 88
  | .readlink => 89
  | .chmod => 90
  | .fchmod => 91
  | .chown => 92
  | .fchown => 93
  | .lchown => 94
  | .umask => 95
  | .gettimeofday => 96
  | .getrlimit => 97
  | .getrusage => 98
  | .sysinfo => 99
  | .times => 100
  | .ptrace => 101
  | .getuid => 102
  | .syslog => 103
  | .getgid => 104
  | .setuid => 105
  | .setgid => 106
  | .geteuid => 107
  | .getegid => 108
  | .setpgid => 109
  | .getppid => 110
  | .getpgrp => 111
  | .setsid => 112
  | .setreuid => 113
  | .setregid => 114
  | .getgroups => 115
  | .setgroups => 116
  | .setresuid => 117
  | .getresuid => 118
  | .setresgid => 119
  | .getresgid => 120
  | .getpgid => 121
  | .setfsuid => 122
  | .setfsgid => 123
  | .getsid => 124
  | .capget => 125
  | .capset => 126
  | .rt_sigpending => 127
  | .rt_sigtimedwait => 128
  | .rt_sigqueueinfo => 129
  | .rt_sigsuspend => 130
  | .sigaltstack => 131
  | .utime => 132
  | .mknod => 133
  | .uselib => 134
  | .personality => 135
  | .ustat => 136
  | .statfs => 137
  | .fstatfs => 138
  | .sysfs => 139
  | .getpriority => 140
  | .setpriority => 141
  | .sched_setparam => 142
  | .sched_getparam => 143
  | .sched_setscheduler => 144
  | .sched_getscheduler => 145
  | .sched_get_priority_max => 146
  | .sched_get_priority_min => 147
  | .sched_rr_get_interval => 148
  | .mlock => 149
  | .munlock => 150
  | .mlockall => 151
  | .munlockall => 152
  | .vhangup => 153
  | .modify_ldt => 154
  | .pivot_root => 155
  | ._sysctl => 156
  | .prctl => 157
  | .arch_prctl => 158
  | .adjtimex => 159
  | .setrlimit => 160
  | .chroot => 161
  | .sync => 162
  | .acct => 163
  | .settimeofday => 164
  | .mount => 165
  | .umount2 => 166
  | .swapon => 167
  | .swapoff => 168
  | .reboot => 169
  | .sethostname => 170
  | .setdomainname => 171
  | .iopl => 172
  | .ioperm => 173
  | .create_module => 174
  | .init_module => 175
  | .delete_module => 176
  | .get_kernel_syms => 177
  | .query_module => 178
  | .quotactl => 179
  | .nfsservctl => 180
  | .getpmsg => 181
  | .putpmsg => 182
  | .afs_syscall => 183
  | .tuxcall => 184
  | .security => 185
  | .gettid => 186
  | .readahead => 187
  | .setxattr => 188
  | .lsetxattr => 189
  | .fsetxattr => 190
  | .getxattr => 191
  | .lgetxattr => 192
  | .fgetxattr => 193
  | .listxattr => 194
  | .llistxattr => 195
  | .flistxattr => 196
  | .removexattr => 197
  | .lremovexattr => 198
  | .fremovexattr => 199
  | .tkill => 200
  | .time => 201
  | .futex => 202
  | .sched_setaffinity => 203
  | .sched_getaffinity => 204
  | .set_thread_area => 205
  | .io_setup => 206
  | .io_destroy => 207
  | .io_getevents => 208
  | .io_submit => 209
  | .io_cancel => 210
  | .get_thread_area => 211
  | .lookup_dcookie => 212
  | .epoll_create => 213
  | .epoll_ctl_old => 214
  | .epoll_wait_old => 215
  | .remap_file_pages => 216
  | .getdents64 => 217
  | .set_tid_address => 218
  | .restart_syscall => 219
  | .semtimedop => 220
  | .fadvise64 => 221
  | .timer_create => 222
  | .timer_settime => 223
  | .timer_gettime => 224
  | .timer_getoverrun => 225
  | .timer_delete => 226
  | .clock_settime => 227
  | .clock_gettime => 228
  | .clock_getres => 229
  | .clock_nanosleep => 230
  | .exit_group => 231
  | .epoll_wait => 232
  | .epoll_ctl => 233
  | .tgkill => 234
  | .utimes => 235
  | .vserver => 236
  | .mbind => 237
  | .set_mempolicy => 238
  | .get_mempolicy => 239
  | .mq_open => 240
  | .mq_unlink => 241
  | .mq_timedsend => 242
  | .mq_timedreceive => 243
  | .mq_notify => 244
  | .mq_getsetattr => 245
  | .kexec_load => 246
  | .waitid => 247
  | .add_key => 248
  | .request_key => 249
  | .keyctl => 250
  | .ioprio_set => 251
  | .ioprio_get => 252
  | .inotify_init => 253
  | .inotify_add_watch => 254
  | .inotify_rm_watch => 255
  | .migrate_pages => 256
  | .openat => 257
  | .mkdirat => 258
  | .mknodat => 259
  | .fchownat => 260
  | .futimesat => 261
  | .newfstatat => 262
  | .unlinkat => 263
  | .renameat => 264
  | .linkat => 265
  | .symlinkat => 266
  | .readlinkat => 267
  | .fchmodat => 268
  | .faccessat => 269
  | .pselect6 => 270
  | .ppoll => 271
  | .unshare => 272
  | .set_robust_list => 273
  | .get_robust_list => 274
  | .splice => 275
  | .tee => 276
  | .sync_file_range => 277
  | .vmsplice => 278
  | .move_pages => 279
  | .utimensat => 280
  | .epoll_pwait => 281
  | .signalfd => 282
  | .timerfd_create => 283
  | .eventfd => 284
  | .fallocate => 285
  | .timerfd_settime => 286
  | .timerfd_gettime => 287
  | .accept4 => 288
  | .signalfd4 => 289
  | .eventfd2 => 290
  | .epoll_create1 => 291
  | .dup3 => 292
  | .pipe2 => 293
  | .inotify_init1 => 294
  | .preadv => 295
  | .pwritev => 296
  | .rt_tgsigqueueinfo => 297
  | .perf_event_open => 298
  | .recvmmsg => 299
  | .fanotify_init => 300
  | .fanotify_mark => 301
  | .prlimit64 => 302
  | .name_to_handle_at => 303
  | .open_by_handle_at => 304
  | .clock_adjtime => 305
  | .syncfs => 306
  | .sendmmsg => 307
  | .setns => 308
  | .getcpu => 309
  | .process_vm_readv => 310
  | .process_vm_writev => 311
  | .kcmp => 312
  | .finit_module => 313
  | .sched_setattr => 314
  | .sched_getattr => 315
  | .renameat2 => 316
  | .seccomp => 317
  | .getrandom => 318
  | .memfd_create => 319
  | .kexec_file_load => 320
  | .bpf => 321
  | .execveat => 322
  | .userfaultfd => 323
  | .membarrier => 324
  | .mlock2 => 325
  | .copy_file_range => 326
  | .preadv2 => 327
  | .pwritev2 => 328
  | .pkey_mprotect => 329
  | .pkey_alloc => 330
  | .pkey_free => 331
  | .statx => 332

/-- Types of parameters: `int`, unsigned of 32 bits, and 64 bits (long, size_t, off_t, pointers; also the typedefs `long` of
include/syscall_stubs.h:32-46). -/
inductive CTy
  | i
  | u
  | l
deriving DecidableEq

/-- A wrapper generated by a macro: `sys` for `SYSREAL_define_syscall` (its name has the prefix sys_). -/
structure Wrapper where
  sys : Bool
  call : Call
  params : List CTy
deriving DecidableEq

/-- include/syscall.h:125-133 `syscall0_ret` .. `syscall6_ret`: the arguments (from 0) that are operands of the asm statement. With five and six
arguments the variables r10 and r9 are set, but are no operands. -/
def retOperands : Nat → List Nat
  | 0 => []
  | 1 => [0]
  | 2 => [0, 1]
  | 3 => [0, 1, 2]
  | 4 => [0, 1, 2, 3]
  | 5 => [0, 1, 2, 4]
  | _ => [0, 1, 2, 4]

/-- The register number `i` holding an argument of type `t`: registers 3 to 5 are set through a variable of type `long`. -/
def operandReg (i : Nat) (t : CTy) (v : Int) (before : BitVec 64) : BitVec 64 :=
  if 3 ≤ i then BitVec.ofInt 64 v
  else match t with
    | .l => BitVec.ofInt 64 v
    | _ => inRegister (before.extractLsb' 32 32) (BitVec.ofInt 32 v)

/-- The registers at `syscall`; `ops` are the arguments that are operands. -/
def asmRegs (ops : List Nat) (params : List CTy) (args : List Int) (before : Nat → BitVec 64) (i : Nat) : BitVec 64 :=
  if i ∈ ops then
    match params[i]?, args[i]? with
    | some t, some v => operandReg i t v (before i)
    | _, _ => before i
  else before i

/-- include/syscall.h:188-194, 213-219 `REAL_define_syscall`, `SYSREAL_define_syscall` (with errno; the call is the same without): number and
registers. -/
def Wrapper.run (w : Wrapper) (args : List Int) (before : Nat → BitVec 64) : Nat × (Nat → BitVec 64) :=
  (headerNr w.call, asmRegs (retOperands w.params.length) w.params args before)

open CTy in
/-- include/syscall_stubs.h:295-790: the wrappers with plain names, in the order of the file (`mprotect` is made by `REAL_define_syscallret`, with the
same call). -/
def stubs : List Wrapper :=
  [⟨false, .fork, []⟩, ⟨false, .fchown, [u, u, u]⟩, ⟨false, .mknod, [l, l, u]⟩, ⟨false, .inotify_init, []⟩, ⟨false, .lstat, [l, l]⟩,
   ⟨false, .ftruncate, [u, u]⟩, ⟨false, .setsockopt, [i, i, i, l, i]⟩, ⟨false, .getuid, []⟩, ⟨false, .vhangup, []⟩,
   ⟨false, .umount2, [l, i]⟩, ⟨false, .access, [l, i]⟩, ⟨false, .setgroups, [i, l]⟩, ⟨false, .setrlimit, [u, l]⟩,
   ⟨false, .setreuid, [u, u]⟩, ⟨false, .chroot, [l]⟩, ⟨false, .inotify_init1, [i]⟩, ⟨false, .fchmod, [u, u]⟩, ⟨false, .pivot_root, [l, l]⟩,
   ⟨false, .setsid, []⟩, ⟨false, .fstat, [i, l]⟩, ⟨false, .getrusage, [i, l]⟩, ⟨false, .socket, [i, i, i]⟩, ⟨false, .flock, [u, u]⟩,
   ⟨false, .nanosleep, [l, l]⟩, ⟨false, .accept, [i, l, l]⟩, ⟨false, .getppid, []⟩, ⟨false, .rt_sigreturn, [l]⟩, ⟨false, .setgid, [u]⟩,
   ⟨false, .getdents, [u, l, u]⟩, ⟨false, .mkdir, [l, i]⟩, ⟨false, .vfork, []⟩, ⟨false, .sync, []⟩, ⟨false, .getitimer, [i, l]⟩,
   ⟨false, .stat, [l, l]⟩, ⟨false, .time, [l]⟩, ⟨false, .mprotect, [l, l, i]⟩, ⟨false, .timerfd_create, [i, i]⟩,
   ⟨false, .reboot, [i, i, u, l]⟩, ⟨false, .umask, [i]⟩, ⟨false, .bind, [i, l, i]⟩, ⟨false, .setresuid, [l, l, l]⟩, ⟨false, .times, [l]⟩,
   ⟨false, .splice, [i, l, i, l, l, u]⟩, ⟨false, .readlink, [l, l, i]⟩, ⟨false, .unlink, [l]⟩, ⟨false, .dup, [i]⟩,
   ⟨false, .inotify_add_watch, [i, l, u]⟩, ⟨false, .msync, [l, l, i]⟩, ⟨false, .rt_sigsuspend, [l, l]⟩,
   ⟨false, .recvfrom, [i, l, l, u, l, l]⟩, ⟨false, .dup3, [i, i, i]⟩, ⟨false, .uname, [l]⟩, ⟨false, .rmdir, [l]⟩,
   ⟨false, .inotify_rm_watch, [i, i]⟩, ⟨false, .chown, [l, u, u]⟩, ⟨false, .close, [i]⟩, ⟨false, .geteuid, []⟩, ⟨false, .kill, [i, i]⟩,
   ⟨false, .symlink, [l, l]⟩, ⟨false, .setuid, [u]⟩, ⟨false, .getsockopt, [i, i, i, l, l]⟩, ⟨false, .munmap, [l, l]⟩,
   ⟨false, .sendto, [i, l, l, u, l, i]⟩, ⟨false, .dup2, [i, i]⟩, ⟨false, .getsid, [i]⟩, ⟨false, .pipe, [l]⟩, ⟨false, .getpid, []⟩,
   ⟨false, .readahead, [i, l, l]⟩, ⟨false, .clone, [i, l, l, l]⟩, ⟨false, .listen, [i, i]⟩, ⟨false, .getrlimit, [u, l]⟩,
   ⟨false, .memfd_create, [l, u]⟩, ⟨false, .chdir, [l]⟩, ⟨false, .timerfd_gettime, [i, l]⟩, ⟨false, .lseek, [u, i, i]⟩,
   ⟨false, .fsync, [i]⟩, ⟨false, .setpgid, [i, i]⟩, ⟨false, .execveat, [i, l, l, l, i]⟩, ⟨false, .setitimer, [i, l, l]⟩,
   ⟨false, .fcntl, [u, u, l]⟩, ⟨false, .rt_sigprocmask, [i, l, l, l]⟩, ⟨false, .getpgrp, []⟩, ⟨false, .mount, [l, l, l, l, l]⟩,
   ⟨false, .getcwd, [l, l]⟩, ⟨false, .getgid, []⟩, ⟨false, .write, [i, l, i]⟩, ⟨false, .getegid, []⟩, ⟨false, .getresuid, [l, l, l]⟩,
   ⟨false, .gettimeofday, [l, l]⟩, ⟨false, .utime, [l, l]⟩, ⟨false, .prctl, [i, l, l, l, l]⟩, ⟨false, .execve, [l, l, l]⟩,
   ⟨false, .sendfile, [i, i, l, l]⟩, ⟨false, .rename, [l, l]⟩, ⟨false, .timerfd_settime, [i, i, l, l]⟩, ⟨false, .wait4, [i, l, i, l]⟩,
   ⟨false, .chmod, [l, u]⟩, ⟨false, .rt_sigaction, [i, l, l, l]⟩, ⟨false, .read, [i, l, i]⟩, ⟨false, .link, [l, l]⟩]

open CTy in
/-- include/syscall_stubs.h:797-2009: the wrappers with the prefix sys_. -/
def sysStubs : List Wrapper :=
  [⟨true, .gettid, []⟩, ⟨true, .getuid, []⟩, ⟨true, .perf_event_open, [l, i, i, i, l]⟩, ⟨true, .mincore, [l, l, l]⟩,
   ⟨true, .process_vm_writev, [i, l, l, l, l, l]⟩, ⟨true, .remap_file_pages, [l, l, l, l, l]⟩, ⟨true, .inotify_rm_watch, [i, i]⟩,
   ⟨true, .init_module, [l, l, l]⟩, ⟨true, .mq_getsetattr, [l, l, l]⟩, ⟨true, .lremovexattr, [l, l]⟩, ⟨true, .sched_getattr, [i, l, u, u]⟩,
   ⟨true, .kexec_load, [l, l, l, l]⟩, ⟨true, .setresuid, [l, l, l]⟩, ⟨true, .munmap, [l, l]⟩, ⟨true, .rt_sigaction, [i, l, l, l]⟩,
   ⟨true, .faccessat, [i, l, i]⟩, ⟨true, .pipe, [l]⟩, ⟨true, .ptrace, [l, l, l, l]⟩, ⟨true, .rmdir, [l]⟩, ⟨true, .accept4, [i, l, l, i]⟩,
   ⟨true, .acct, [l]⟩, ⟨true, .io_cancel, [l, l, l]⟩, ⟨true, .sched_rr_get_interval, [i, l]⟩, ⟨true, .prctl, [i, l, l, l, l]⟩,
   ⟨true, .fanotify_mark, [l, l, l, l, l]⟩, ⟨true, .shmdt, [l]⟩, ⟨true, .flistxattr, [i, l, l]⟩, ⟨true, .getxattr, [l, l, l, l]⟩,
   ⟨true, .shutdown, [i, i]⟩, ⟨true, .symlink, [l, l]⟩, ⟨true, .ustat, [u, l]⟩, ⟨true, .fanotify_init, [u, u]⟩,
   ⟨true, .mq_open, [l, i, u, l]⟩, ⟨true, .signalfd, [i, l, l]⟩, ⟨true, .statfs, [l, l]⟩, ⟨true, .recvfrom, [i, l, l, u, l, l]⟩,
   ⟨true, .sched_getparam, [i, l]⟩, ⟨true, .semctl, [i, i, i, l]⟩, ⟨true, .lseek, [u, l, u]⟩, ⟨true, .getdents, [u, l, u]⟩,
   ⟨true, .getsockopt, [i, i, i, l, l]⟩, ⟨true, .mq_unlink, [l]⟩, ⟨true, .set_robust_list, [l, l]⟩, ⟨true, .getpriority, [i, i]⟩,
   ⟨true, .splice, [i, l, i, l, l, u]⟩, ⟨true, .semop, [i, l, u]⟩, ⟨true, .fchown, [u, u, u]⟩, ⟨true, .waitid, [i, i, l, i, l]⟩,
   ⟨true, .sysinfo, [l]⟩, ⟨true, .getrusage, [i, l]⟩, ⟨true, .shmat, [i, l, i]⟩, ⟨true, .flock, [u, u]⟩, ⟨true, .fstat, [u, l]⟩,
   ⟨true, .tee, [i, i, l, u]⟩, ⟨true, .mq_timedsend, [l, l, l, u, l]⟩, ⟨true, .semget, [i, i, i]⟩, ⟨true, .io_setup, [u, l]⟩,
   ⟨true, .process_vm_readv, [i, l, l, l, l, l]⟩, ⟨true, .uname, [l]⟩, ⟨true, .truncate, [l, l]⟩, ⟨true, .getgid, []⟩, ⟨true, .times, [l]⟩,
   ⟨true, .setns, [i, i]⟩, ⟨true, .getsid, [i]⟩, ⟨true, .fallocate, [l, l, l, l]⟩, ⟨true, .mremap, [l, l, l, l, l]⟩,
   ⟨true, .setpgid, [i, i]⟩, ⟨true, .semtimedop, [i, l, u, l]⟩, ⟨true, .removexattr, [l, l]⟩, ⟨true, .mlock, [l, l]⟩,
   ⟨true, .setitimer, [i, l, l]⟩, ⟨true, .rt_sigreturn, [l]⟩, ⟨true, .getrandom, [l, l, u]⟩, ⟨true, .setfsgid, [u]⟩, ⟨true, .getpid, []⟩,
   ⟨true, .migrate_pages, [i, l, l, l]⟩, ⟨true, .iopl, [u, l]⟩, ⟨true, .mprotect, [l, l, l]⟩, ⟨true, .pwrite64, [u, l, l, l]⟩,
   ⟨true, .close, [u]⟩, ⟨true, .tkill, [i, i]⟩, ⟨true, .fchdir, [u]⟩, ⟨true, .sendto, [i, l, l, u, l, i]⟩,
   ⟨true, .futex, [l, i, u, l, l, u]⟩, ⟨true, .clock_getres, [i, l]⟩, ⟨true, .prlimit64, [i, u, l, l]⟩, ⟨true, .getresuid, [l, l, l]⟩,
   ⟨true, .sched_setparam, [i, l]⟩, ⟨true, .wait4, [i, l, i, l]⟩, ⟨true, .ftruncate, [u, l]⟩, ⟨true, .lchown, [l, u, u]⟩,
   ⟨true, .socket, [i, i, i]⟩, ⟨true, .vfork, []⟩, ⟨true, .signalfd4, [i, l, l, i]⟩, ⟨true, .setuid, [u]⟩,
   ⟨true, .clock_nanosleep, [i, i, l, l]⟩, ⟨true, .memfd_create, [l, u]⟩, ⟨true, .add_key, [l, l, l, l]⟩, ⟨true, .sysfs, [i, l, l]⟩,
   ⟨true, .fdatasync, [u]⟩, ⟨true, .fork, []⟩, ⟨true, .getpgrp, []⟩, ⟨true, .unlink, [l]⟩, ⟨true, .munlockall, []⟩,
   ⟨true, .delete_module, [l, u]⟩, ⟨true, .dup2, [u, u]⟩, ⟨true, .sendmsg, [i, l, u]⟩, ⟨true, .io_destroy, [l]⟩,
   ⟨true, .«open», [l, i, i]⟩, ⟨true, .setxattr, [l, l, l, l, i]⟩, ⟨true, .modify_ldt, [i, l, l]⟩, ⟨true, .sigaltstack, [l, l]⟩,
   ⟨true, .fchmod, [u, u]⟩, ⟨true, .readv, [l, l, l]⟩, ⟨true, .mount, [l, l, l, l, l]⟩, ⟨true, .openat, [i, l, i, i]⟩,
   ⟨true, .mq_notify, [l, l]⟩, ⟨true, .writev, [l, l, l]⟩, ⟨true, .timerfd_settime, [i, i, l, l]⟩, ⟨true, .lstat, [l, l]⟩,
   ⟨true, .nanosleep, [l, l]⟩, ⟨true, .rename, [l, l]⟩, ⟨true, .ioctl, [u, u, l]⟩, ⟨true, .fremovexattr, [i, l]⟩,
   ⟨true, .sethostname, [l, i]⟩, ⟨true, .madvise, [l, l, i]⟩, ⟨true, .epoll_ctl, [i, i, i, l]⟩, ⟨true, .fstatfs, [u, l]⟩,
   ⟨true, .ioperm, [l, l, i]⟩, ⟨true, .setregid, [u, u]⟩, ⟨true, .restart_syscall, []⟩, ⟨true, .mlockall, [i]⟩, ⟨true, .mknod, [l, l, u]⟩,
   ⟨true, .geteuid, []⟩, ⟨true, .sync_file_range, [l, l, l, l]⟩, ⟨true, .setsockopt, [i, i, i, l, i]⟩, ⟨true, .fsync, [u]⟩,
   ⟨true, .pwritev, [l, l, l, l, l]⟩, ⟨true, .sync, []⟩, ⟨true, .sched_setattr, [i, l, u]⟩, ⟨true, .get_robust_list, [i, l, l]⟩,
   ⟨true, .setpriority, [i, i, i]⟩, ⟨true, .getdents64, [u, l, u]⟩, ⟨true, .sendmmsg, [i, l, u, u]⟩, ⟨true, .listxattr, [l, l, l]⟩,
   ⟨true, .rt_sigpending, [l, l]⟩, ⟨true, .inotify_init, []⟩, ⟨true, .setsid, []⟩, ⟨true, .getpgid, [i]⟩, ⟨true, .llistxattr, [l, l, l]⟩,
   ⟨true, .arch_prctl, [l, i, l]⟩, ⟨true, .getcpu, [l, l, l]⟩, ⟨true, .rt_sigqueueinfo, [i, i, l]⟩, ⟨true, .getitimer, [i, l]⟩,
   ⟨true, .munlock, [l, l]⟩, ⟨true, .getpeername, [i, l, l]⟩, ⟨true, .msync, [l, l, i]⟩, ⟨true, .pause, []⟩, ⟨true, .utimes, [l, l]⟩,
   ⟨true, .mknodat, [i, l, i, u]⟩, ⟨true, .keyctl, [i, l, l, l, l]⟩, ⟨true, .setgid, [u]⟩, ⟨true, .epoll_create1, [i]⟩,
   ⟨true, .timer_getoverrun, [l]⟩, ⟨true, .kcmp, [i, i, i, l, l]⟩, ⟨true, .fchownat, [i, l, u, u, i]⟩, ⟨true, .execve, [l, l, l]⟩,
   ⟨true, .lsetxattr, [l, l, l, l, i]⟩, ⟨true, .seccomp, [u, u, l]⟩, ⟨true, .epoll_create, [i]⟩, ⟨true, .getppid, []⟩,
   ⟨true, .sched_get_priority_min, [i]⟩, ⟨true, .socketpair, [i, i, i, l]⟩, ⟨true, .mkdir, [l, i]⟩, ⟨true, .readlinkat, [i, l, l, i]⟩,
   ⟨true, .futimesat, [i, l, l]⟩, ⟨true, ._sysctl, [l]⟩, ⟨true, .sendfile, [i, i, l, l]⟩, ⟨true, .get_mempolicy, [l, l, l, l, l]⟩,
   ⟨true, .swapon, [l, i]⟩, ⟨true, .chdir, [l]⟩, ⟨true, .readahead, [i, l, l]⟩, ⟨true, .connect, [i, l, i]⟩, ⟨true, .access, [l, i]⟩,
   ⟨true, .kill, [i, i]⟩, ⟨true, .timerfd_create, [i, i]⟩, ⟨true, .setfsuid, [u]⟩, ⟨true, .inotify_init1, [i]⟩, ⟨true, .utime, [l, l]⟩,
   ⟨true, .pivot_root, [l, l]⟩, ⟨true, .reboot, [i, i, u, l]⟩, ⟨true, .lookup_dcookie, [l, l, l]⟩, ⟨true, .pread64, [l, l, l, l]⟩,
   ⟨true, .setdomainname, [l, i]⟩, ⟨true, .lgetxattr, [l, l, l, l]⟩, ⟨true, .finit_module, [i, l, i]⟩, ⟨true, .msgrcv, [i, l, l, l, i]⟩,
   ⟨true, .mkdirat, [i, l, i]⟩, ⟨true, .settimeofday, [l, l]⟩, ⟨true, .dup3, [u, u, i]⟩, ⟨true, .eventfd2, [u, i]⟩,
   ⟨true, .set_tid_address, [l]⟩, ⟨true, .ppoll, [l, u, l, l, l]⟩, ⟨true, .tgkill, [i, i, i]⟩, ⟨true, .recvmsg, [i, l, u]⟩,
   ⟨true, .utimensat, [i, l, l, i]⟩, ⟨true, .mq_timedreceive, [l, l, l, l, l]⟩, ⟨true, .syslog, [i, l, i]⟩,
   ⟨true, .recvmmsg, [i, l, u, u, l]⟩, ⟨true, .exit_group, [i]⟩, ⟨true, .readlink, [l, l, i]⟩, ⟨true, .getsockname, [i, l, l]⟩,
   ⟨true, .adjtimex, [l]⟩, ⟨true, .getcwd, [l, l]⟩, ⟨true, .bind, [i, l, i]⟩, ⟨true, .setresgid, [u, u, u]⟩,
   ⟨true, .name_to_handle_at, [i, l, l, l, i]⟩, ⟨true, .sched_getaffinity, [i, u, l]⟩, ⟨true, .shmget, [i, l, i]⟩, ⟨true, .chmod, [l, u]⟩,
   ⟨true, .unshare, [l]⟩, ⟨true, .stat, [l, l]⟩, ⟨true, .fcntl, [u, u, l]⟩, ⟨true, .timer_create, [i, l, l]⟩, ⟨true, .setrlimit, [u, l]⟩,
   ⟨true, .umount2, [l, i]⟩, ⟨true, .rt_sigsuspend, [l, l]⟩, ⟨true, .renameat2, [i, l, i, l, u]⟩, ⟨true, .chown, [l, u, u]⟩,
   ⟨true, .newfstatat, [i, l, l, i]⟩, ⟨true, .clock_gettime, [i, l]⟩, ⟨true, .msgsnd, [i, l, l, i]⟩, ⟨true, .shmctl, [i, i, l]⟩,
   ⟨true, .dup, [u]⟩, ⟨true, .timer_gettime, [l, l]⟩, ⟨true, .open_by_handle_at, [i, l, l, l, i]⟩, ⟨true, .sched_getscheduler, [i]⟩,
   ⟨true, .symlinkat, [l, i, l]⟩, ⟨true, .move_pages, [i, l, l, l, l, i]⟩, ⟨true, .setgroups, [i, l]⟩, ⟨true, .alarm, [u]⟩,
   ⟨true, .preadv, [l, l, l, l, l]⟩, ⟨true, .request_key, [l, l, l, l]⟩, ⟨true, .ioprio_set, [i, i, i]⟩,
   ⟨true, .io_getevents, [l, l, l, l]⟩, ⟨true, .rt_sigtimedwait, [l, l, l, l]⟩, ⟨true, .msgget, [i, i]⟩, ⟨true, .accept, [i, l, l]⟩,
   ⟨true, .poll, [l, u, l]⟩, ⟨true, .renameat, [i, l, i, l]⟩, ⟨true, .kexec_file_load, [i, i, l, l, l]⟩, ⟨true, .select, [i, l, l, l, l]⟩,
   ⟨true, .rt_tgsigqueueinfo, [i, i, i, l]⟩, ⟨true, .sched_setaffinity, [i, u, l]⟩, ⟨true, .set_mempolicy, [i, l, l]⟩,
   ⟨true, .eventfd, [u]⟩, ⟨true, .msgctl, [i, i, l]⟩, ⟨true, .personality, [u]⟩, ⟨true, .umask, [i]⟩, ⟨true, .write, [u, l, l]⟩,
   ⟨true, .timer_delete, [l]⟩, ⟨true, .capget, [l, l]⟩, ⟨true, .clone, [l, l, l, l]⟩, ⟨true, .read, [u, l, l]⟩, ⟨true, .pipe2, [l, i]⟩,
   ⟨true, .sched_get_priority_max, [i]⟩, ⟨true, .capset, [l, l]⟩, ⟨true, .setreuid, [u, u]⟩, ⟨true, .sched_setscheduler, [i, i, l]⟩,
   ⟨true, .pselect6, [i, l, l, l, l, l]⟩, ⟨true, .timer_settime, [l, i, l, l]⟩, ⟨true, .mbind, [l, l, l, l, l, u]⟩,
   ⟨true, .gettimeofday, [l, l]⟩, ⟨true, .clock_settime, [i, l]⟩, ⟨true, .swapoff, [l]⟩, ⟨true, .quotactl, [u, l, l, l]⟩,
   ⟨true, .syncfs, [i]⟩, ⟨true, .time, [l]⟩, ⟨true, .epoll_wait, [i, l, i, i]⟩, ⟨true, .epoll_pwait, [i, l, i, i, l, l]⟩,
   ⟨true, .linkat, [i, l, i, l, i]⟩, ⟨true, .creat, [l, i]⟩, ⟨true, .ioprio_get, [i, i]⟩, ⟨true, .vmsplice, [i, l, l, u]⟩,
   ⟨true, .getrlimit, [u, l]⟩, ⟨true, .getegid, []⟩, ⟨true, .link, [l, l]⟩, ⟨true, .getresgid, [l, l, l]⟩,
   ⟨true, .fadvise64, [i, l, l, i]⟩, ⟨true, .vhangup, []⟩, ⟨true, .inotify_add_watch, [i, l, u]⟩, ⟨true, .fsetxattr, [i, l, l, l, i]⟩,
   ⟨true, .clock_adjtime, [i, l]⟩, ⟨true, .rt_sigprocmask, [i, l, l, l]⟩, ⟨true, .fchmodat, [i, l, u]⟩, ⟨true, .sched_yield, []⟩,
   ⟨true, .mmap, [l, l, l, l, l, l]⟩, ⟨true, .getgroups, [i, l]⟩, ⟨true, .chroot, [l]⟩, ⟨true, .unlinkat, [i, l, i]⟩,
   ⟨true, .io_submit, [l, l, l]⟩, ⟨true, .fgetxattr, [i, l, l, l]⟩, ⟨true, .listen, [i, i]⟩, ⟨true, .timerfd_gettime, [i, l]⟩]

/-! ### wrappers written by hand -/

/-- include/select.h:18-31 `select`: the number is that of select, all five arguments are operands. -/
def selectRun (args : List Int) (before : Nat → BitVec 64) : Nat × (Nat → BitVec 64) :=
  (headerNr .select, asmRegs [0, 1, 2, 3, 4] [.i, .l, .l, .l, .l] args before)

/-- include/mremap.h:4-24 `mremap`: also with the number of select. -/
def mremapRun (args : List Int) (before : Nat → BitVec 64) : Nat × (Nat → BitVec 64) :=
  (headerNr .select, asmRegs [0, 1, 2, 3, 4] [.l, .l, .l, .i, .l] args before)

/-- include/poll.h:25-35 `poll`. -/
def pollRun (args : List Int) (before : Nat → BitVec 64) : Nat × (Nat → BitVec 64) :=
  (headerNr .poll, asmRegs [0, 1, 2] [.l, .u, .i] args before)

/-- src/file/open.c:18-30 `open`, the third argument given. -/
def openRun (args : List Int) (before : Nat → BitVec 64) : Nat × (Nat → BitVec 64) :=
  (headerNr .«open», asmRegs [0, 1, 2] [.l, .i, .i] args before)

/-- src/system/ioctl.c:9-18 `ioctl`, the third argument given. -/
def ioctlRun (args : List Int) (before : Nat → BitVec 64) : Nat × (Nat → BitVec 64) :=
  (headerNr .ioctl, asmRegs [0, 1, 2] [.i, .l, .l] args before)

/-- src/memory/mmap.c:8-12 `mmap`, by the macro `syscall6` of include/syscall.h:119, which has all operands: a negative descriptor becomes 0. -/
def mmapRun (addr len prot flags fd off : Int) (before : Nat → BitVec 64) : Nat × (Nat → BitVec 64) :=
  (headerNr .mmap, asmRegs [0, 1, 2, 3, 4, 5] [.l, .l, .i, .i, .i, .l] [addr, len, prot, flags, if fd < 0 then 0 else fd, off] before)

/-- src/memory/sys_brk.c:4-8 `sys_brk`. -/
def brkRun (args : List Int) (before : Nat → BitVec 64) : Nat × (Nat → BitVec 64) :=
  (headerNr .brk, asmRegs [0] [.l] args before)

/-! ### functions that call a wrapper -/

/-- src/file/creat.c:5-7 `creat`: `O_CREAT|O_WRONLY|O_TRUNC` of include/filemodes.h:43-48. -/
def creatRun (s mode : Int) (before : Nat → BitVec 64) : Nat × (Nat → BitVec 64) := openRun [s, ((0o100 ||| 1 ||| 0o1000 : Nat) : Int), mode] before

/-- include/mkfifo.h:4-6 `mkfifo`, the mode a number of permissions; `S_IFIFO` is 0010000 (headers/common/bits/stat.h:13). -/
def mkfifoRun (path : Int) (mode : Nat) (before : Nat → BitVec 64) : Nat × (Nat → BitVec 64) :=
  (Wrapper.mk false .mknod [.l, .l, .u]).run [path, ((mode ||| 0o10000 : Nat) : Int), 0] before

/-- src/process/wait.c:8-10 `wait`. -/
def waitRun (status : Int) (before : Nat → BitVec 64) : Nat × (Nat → BitVec 64) := (Wrapper.mk false .wait4 [.i, .l, .i, .l]).run [-1, status, 0, 0] before

/-- src/process/wait.c:16-18 `waitpid`. -/
def waitpidRun (pid status options : Int) (before : Nat → BitVec 64) : Nat × (Nat → BitVec 64) :=
  (Wrapper.mk false .wait4 [.i, .l, .i, .l]).run [pid, status, options, 0] before

/-- src/process/killpg.c:2-4 `killpg`; `-pid` overflows for the smallest `int`. -/
def killpgRun (pid sig : Int) (before : Nat → BitVec 64) : Res (Nat × (Nat → BitVec 64)) := do
  let p ← ckInt (-pid)
  pure ((Wrapper.mk false .kill [.i, .i]).run [p, sig] before)

/-- src/network/recv.c:3-5 `recv`. -/
def recvRun (fd buf len flags : Int) (before : Nat → BitVec 64) : Nat × (Nat → BitVec 64) :=
  (Wrapper.mk false .recvfrom [.i, .l, .l, .u, .l, .l]).run [fd, buf, len, flags, 0, 0] before

/-- include/fexecve.h:3-5 `fexecve` (and include/fexecveat.h): `empty` is the address of a string "", AT_EMPTY_PATH is 0x1000
(include/globaldefs.h:93). -/
def fexecveRun (fd empty argv envp : Int) (before : Nat → BitVec 64) : Nat × (Nat → BitVec 64) :=
  (Wrapper.mk false .execveat [.i, .l, .l, .l, .i]).run [fd, empty, argv, envp, 0x1000] before

/-- src/process/sigaction.c:60-62 `sigprocmask`; `sigset_t` has 8 bytes (headers/linux_x64/sys/signal.h:56). -/
def sigprocmaskRun (how set oldset : Int) (before : Nat → BitVec 64) : Nat × (Nat → BitVec 64) :=
  (Wrapper.mk false .rt_sigprocmask [.i, .l, .l, .l]).run [how, set, oldset, 8] before

/-- src/process/sigaction.c:52-54 `sigsuspend`. -/
def sigsuspendRun (mask : Int) (before : Nat → BitVec 64) : Nat × (Nat → BitVec 64) :=
  (Wrapper.mk false .rt_sigsuspend [.l, .l]).run [mask, 8] before

/-- src/termios/pty.c:14-17 `unlockpt`; `p` is the address of the variable `unlock`, which is 0; TIOCSPTLCK is 0x40045431
(headers/common/bits/ioctl.h:58). -/
def unlockptRun (fd p : Int) (before : Nat → BitVec 64) : Nat × (Nat → BitVec 64) := ioctlRun [fd, 0x40045431, p] before

/-- src/process/clone.c:7-20 `clone_t`; `tid` and `ptid` are the addresses of its variables. The flags are an operand of 32 bits, the fifth
register is no operand. -/
def cloneTRun (flags tid ptid : Int) (before : Nat → BitVec 64) : Nat × (Nat → BitVec 64) :=
  (headerNr .clone, asmRegs [0, 1, 2, 3] [.i, .l, .l, .l] [flags, 0, tid, ptid] before)

end Minilib

/-
The switches of the library: which functions a program gets, decided by the preprocessor in minilib.h and minilib.c from
the macros mini_… the program defines, modelled from /repo/minilib.h, /repo/minilib.c, /repo/src, /repo/include and
/repo/macros/defgroups.h.
-/

set_option autoImplicit false

namespace Minilib

/-! ### The switches; `Sw.m_x` is the number of the macro mini_x -/

def Sw.m_0 : Nat := 0
def Sw.m__die : Nat := 1
def Sw.m__fopen : Nat := 2
def Sw.m__itobin : Nat := 3
def Sw.m__itohex : Nat := 4
def Sw.m__match : Nat := 5
def Sw.m__match_ext2 : Nat := 6
def Sw.m__mprints : Nat := 7
def Sw.m__strcasecmp : Nat := 8
def Sw.m__strcmp : Nat := 9
def Sw.m_abort : Nat := 10
def Sw.m_access : Nat := 11
def Sw.m_alphasort : Nat := 12
def Sw.m_assert : Nat := 13
def Sw.m_atexit : Nat := 14
def Sw.m_atoi : Nat := 15
def Sw.m_atol : Nat := 16
def Sw.m_basename : Nat := 17
def Sw.m_brk : Nat := 18
def Sw.m_bsd_cksum : Nat := 19
def Sw.m_bsd_cksumblock : Nat := 20
def Sw.m_bsearch : Nat := 21
def Sw.m_calloc : Nat := 22
def Sw.m_cfmakeraw : Nat := 23
def Sw.m_chmod : Nat := 24
def Sw.m_clearerr : Nat := 25
def Sw.m_clearerror : Nat := 26
def Sw.m_clone_t : Nat := 27
def Sw.m_close : Nat := 28
def Sw.m_closedir : Nat := 29
def Sw.m_creat : Nat := 30
def Sw.m_die : Nat := 31
def Sw.m_die_if : Nat := 32
def Sw.m_dief : Nat := 33
def Sw.m_dief_if : Nat := 34
def Sw.m_dies : Nat := 35
def Sw.m_dies_if : Nat := 36
def Sw.m_dirbuf : Nat := 37
def Sw.m_dirfd : Nat := 38
def Sw.m_dirname : Nat := 39
def Sw.m_djb2_hash : Nat := 40
def Sw.m_djb_cksum : Nat := 41
def Sw.m_dprintf : Nat := 42
def Sw.m_dprints : Nat := 43
def Sw.m_dtodec : Nat := 44
def Sw.m_endgrent : Nat := 45
def Sw.m_endpwent : Nat := 46
def Sw.m_environ : Nat := 47
def Sw.m_eprint : Nat := 48
def Sw.m_eprintf : Nat := 49
def Sw.m_eprintfs : Nat := 50
def Sw.m_eprintl : Nat := 51
def Sw.m_eprints : Nat := 52
def Sw.m_eprintsl : Nat := 53
def Sw.m_eputs : Nat := 54
def Sw.m_err : Nat := 55
def Sw.m_errno : Nat := 56
def Sw.m_errno_str : Nat := 57
def Sw.m_error : Nat := 58
def Sw.m_errx : Nat := 59
def Sw.m_ether_ntoa : Nat := 60
def Sw.m_ewrite : Nat := 61
def Sw.m_ewrites : Nat := 62
def Sw.m_ewritesl : Nat := 63
def Sw.m_execl : Nat := 64
def Sw.m_execv : Nat := 65
def Sw.m_execve : Nat := 66
def Sw.m_execveat : Nat := 67
def Sw.m_execvp : Nat := 68
def Sw.m_execvpe : Nat := 69
def Sw.m_exit : Nat := 70
def Sw.m_exit_errno : Nat := 71
def Sw.m_fclose : Nat := 72
def Sw.m_fdopen : Nat := 73
def Sw.m_feof : Nat := 74
def Sw.m_ferror : Nat := 75
def Sw.m_fexecve : Nat := 76
def Sw.m_fexecveat : Nat := 77
def Sw.m_fflush : Nat := 78
def Sw.m_fgetc : Nat := 79
def Sw.m_fgetpos : Nat := 80
def Sw.m_fgets : Nat := 81
def Sw.m_fgetsn : Nat := 82
def Sw.m_fgetsp : Nat := 83
def Sw.m_fgetud : Nat := 84
def Sw.m_fgetul : Nat := 85
def Sw.m_fileno : Nat := 86
def Sw.m_fopen : Nat := 87
def Sw.m_fprint : Nat := 88
def Sw.m_fprintf : Nat := 89
def Sw.m_fprintfs : Nat := 90
def Sw.m_fprints : Nat := 91
def Sw.m_fputc : Nat := 92
def Sw.m_fputs : Nat := 93
def Sw.m_fread : Nat := 94
def Sw.m_free : Nat := 95
def Sw.m_free_brk : Nat := 96
def Sw.m_freopen : Nat := 97
def Sw.m_fseek : Nat := 98
def Sw.m_fsetpos : Nat := 99
def Sw.m_fstat : Nat := 100
def Sw.m_ftell : Nat := 101
def Sw.m_fwrite : Nat := 102
def Sw.m_fwrites : Nat := 103
def Sw.m_fwritesl : Nat := 104
def Sw.m_getbrk : Nat := 105
def Sw.m_getc : Nat := 106
def Sw.m_getchar : Nat := 107
def Sw.m_getdents : Nat := 108
def Sw.m_getenv : Nat := 109
def Sw.m_getgrent : Nat := 110
def Sw.m_getgrgid : Nat := 111
def Sw.m_getgrnam : Nat := 112
def Sw.m_getgrouplist : Nat := 113
def Sw.m_getgroups : Nat := 114
def Sw.m_gethostname : Nat := 115
def Sw.m_getopt : Nat := 116
def Sw.m_getpid : Nat := 117
def Sw.m_getpwent : Nat := 118
def Sw.m_getpwnam : Nat := 119
def Sw.m_getpwuid : Nat := 120
def Sw.m_gets : Nat := 121
def Sw.m_getuid : Nat := 122
def Sw.m_getusergroups : Nat := 123
def Sw.m_globals : Nat := 124
def Sw.m_grantpt : Nat := 125
def Sw.m_grent : Nat := 126
def Sw.m_group_print : Nat := 127
def Sw.m_group_printf : Nat := 128
def Sw.m_group_write : Nat := 129
def Sw.m_htonl : Nat := 130
def Sw.m_htons : Nat := 131
def Sw.m_inet_aton : Nat := 132
def Sw.m_inet_ntoa : Nat := 133
def Sw.m_initgroups : Nat := 134
def Sw.m_ioctl : Nat := 135
def Sw.m_isatty : Nat := 136
def Sw.m_itoHEX : Nat := 137
def Sw.m_itobin : Nat := 138
def Sw.m_itodec : Nat := 139
def Sw.m_itohex : Nat := 140
def Sw.m_itooct : Nat := 141
def Sw.m_kill : Nat := 142
def Sw.m_killpg : Nat := 143
def Sw.m_lseek : Nat := 144
def Sw.m_ltodec : Nat := 145
def Sw.m_malloc : Nat := 146
def Sw.m_malloc_brk : Nat := 147
def Sw.m_map_protected : Nat := 148
def Sw.m_match : Nat := 149
def Sw.m_match_ext : Nat := 150
def Sw.m_match_ext2 : Nat := 151
def Sw.m_memchr : Nat := 152
def Sw.m_memcmp : Nat := 153
def Sw.m_memcpy : Nat := 154
def Sw.m_memfrob : Nat := 155
def Sw.m_memmove : Nat := 156
def Sw.m_memset : Nat := 157
def Sw.m_mkfifo : Nat := 158
def Sw.m_mknod : Nat := 159
def Sw.m_mmap : Nat := 160
def Sw.m_mprotect : Nat := 161
def Sw.m_munmap : Nat := 162
def Sw.m_nanosleep : Nat := 163
def Sw.m_network : Nat := 164
def Sw.m_ntohl : Nat := 165
def Sw.m_ntohs : Nat := 166
def Sw.m_open : Nat := 167
def Sw.m_opendir : Nat := 168
def Sw.m_opendirp : Nat := 169
def Sw.m_passwdfile_open : Nat := 170
def Sw.m_perror : Nat := 171
def Sw.m_posix_openpt : Nat := 172
def Sw.m_print : Nat := 173
def Sw.m_printf : Nat := 174
def Sw.m_printfs : Nat := 175
def Sw.m_printl : Nat := 176
def Sw.m_prints : Nat := 177
def Sw.m_printsl : Nat := 178
def Sw.m_ptsname : Nat := 179
def Sw.m_ptsname_r : Nat := 180
def Sw.m_putc : Nat := 181
def Sw.m_putchar : Nat := 182
def Sw.m_putenv : Nat := 183
def Sw.m_puts : Nat := 184
def Sw.m_pwent : Nat := 185
def Sw.m_qsort : Nat := 186
def Sw.m_raise : Nat := 187
def Sw.m_rand : Nat := 188
def Sw.m_read : Nat := 189
def Sw.m_readdir : Nat := 190
def Sw.m_realloc : Nat := 191
def Sw.m_recv : Nat := 192
def Sw.m_recvfrom : Nat := 193
def Sw.m_ret_errno : Nat := 194
def Sw.m_rewind : Nat := 195
def Sw.m_rewinddir : Nat := 196
def Sw.m_rt_sigaction : Nat := 197
def Sw.m_rt_sigprocmask : Nat := 198
def Sw.m_rt_sigsuspend : Nat := 199
def Sw.m_sbrk : Nat := 200
def Sw.m_scandir : Nat := 201
def Sw.m_sdbm_hash : Nat := 202
def Sw.m_seekdir : Nat := 203
def Sw.m_setbrk : Nat := 204
def Sw.m_setbuf : Nat := 205
def Sw.m_setenv : Nat := 206
def Sw.m_seterrno : Nat := 207
def Sw.m_setgid : Nat := 208
def Sw.m_setgrent : Nat := 209
def Sw.m_setgroups : Nat := 210
def Sw.m_setpwent : Nat := 211
def Sw.m_setvbuf : Nat := 212
def Sw.m_sigaction : Nat := 213
def Sw.m_sigaddset : Nat := 214
def Sw.m_sigdelset : Nat := 215
def Sw.m_sigemptyset : Nat := 216
def Sw.m_sigfillset : Nat := 217
def Sw.m_sigismember : Nat := 218
def Sw.m_signal : Nat := 219
def Sw.m_sigprocmask : Nat := 220
def Sw.m_sigsuspend : Nat := 221
def Sw.m_sleep : Nat := 222
def Sw.m_snprintf : Nat := 223
def Sw.m_snprintfs : Nat := 224
def Sw.m_sprintf : Nat := 225
def Sw.m_srand : Nat := 226
def Sw.m_stpcpy : Nat := 227
def Sw.m_stplcpy : Nat := 228
def Sw.m_stpncpy : Nat := 229
def Sw.m_strcasecmp : Nat := 230
def Sw.m_strcat : Nat := 231
def Sw.m_strchr : Nat := 232
def Sw.m_strchrnul : Nat := 233
def Sw.m_strcmp : Nat := 234
def Sw.m_strcpy : Nat := 235
def Sw.m_strcspn : Nat := 236
def Sw.m_strdup : Nat := 237
def Sw.m_strerror : Nat := 238
def Sw.m_strlcpy : Nat := 239
def Sw.m_strlen : Nat := 240
def Sw.m_strncasecmp : Nat := 241
def Sw.m_strncat : Nat := 242
def Sw.m_strncmp : Nat := 243
def Sw.m_strncpy : Nat := 244
def Sw.m_strndup : Nat := 245
def Sw.m_strnlen : Nat := 246
def Sw.m_strpbrk : Nat := 247
def Sw.m_strrchr : Nat := 248
def Sw.m_strspn : Nat := 249
def Sw.m_strstr : Nat := 250
def Sw.m_strtoimax : Nat := 251
def Sw.m_strtok : Nat := 252
def Sw.m_strtok_r : Nat := 253
def Sw.m_strtol : Nat := 254
def Sw.m_strtoll : Nat := 255
def Sw.m_swap : Nat := 256
def Sw.m_sys_brk : Nat := 257
def Sw.m_system : Nat := 258
def Sw.m_tcgetattr : Nat := 259
def Sw.m_tcgetpgrp : Nat := 260
def Sw.m_tcsetattr : Nat := 261
def Sw.m_tcsetpgrp : Nat := 262
def Sw.m_telldir : Nat := 263
def Sw.m_term_width : Nat := 264
def Sw.m_termio : Nat := 265
def Sw.m_token_i : Nat := 266
def Sw.m_token_s : Nat := 267
def Sw.m_tolower : Nat := 268
def Sw.m_uitoHEX : Nat := 269
def Sw.m_uitodec : Nat := 270
def Sw.m_uitohex : Nat := 271
def Sw.m_ultodec : Nat := 272
def Sw.m_uname : Nat := 273
def Sw.m_ungetc : Nat := 274
def Sw.m_unlockpt : Nat := 275
def Sw.m_unmap_protected : Nat := 276
def Sw.m_unsetenv : Nat := 277
def Sw.m_userdb : Nat := 278
def Sw.m_userdb_open : Nat := 279
def Sw.m_usleep : Nat := 280
def Sw.m_verbose_errstr : Nat := 281
def Sw.m_vexec : Nat := 282
def Sw.m_vexec_q : Nat := 283
def Sw.m_vfork : Nat := 284
def Sw.m_vfprintf : Nat := 285
def Sw.m_vsnprintf : Nat := 286
def Sw.m_vsprintf : Nat := 287
def Sw.m_wait : Nat := 288
def Sw.m_wait4 : Nat := 289
def Sw.m_waitpid : Nat := 290
def Sw.m_warn : Nat := 291
def Sw.m_where : Nat := 292
def Sw.m_write : Nat := 293
def Sw.m_writes : Nat := 294
def Sw.m_writesl : Nat := 295

/-- How many there are. -/
def Sw.count : Nat := 296

/-! ### The preprocessor -/

/-- A line of the preprocessor; the headers use no others in the part modelled here. -/
inductive PpDir where
  | ifdef (x : Nat)
  | ifndef (x : Nat)
  | define (x : Nat)
  | endif

/-- The macros defined and the conditions the current line is in, innermost first. -/
structure PpState where
  defd : Nat → Bool
  conds : List Bool

/-- C11 6.10.1, 6.10.3: one line. Nothing is defined in a group that is skipped. -/
def ppStep (s : PpState) : PpDir → PpState
  | .ifdef x => { s with conds := s.defd x :: s.conds }
  | .ifndef x => { s with conds := (!s.defd x) :: s.conds }
  | .define x => if s.conds.all id then { s with defd := fun n => n == x || s.defd n } else s
  | .endif => { s with conds := s.conds.tail }

def ppRun (l : List PpDir) (s : PpState) : PpState := l.foldl ppStep s

/-- minilib.h:110-124 and so on: one group, `#ifdef mini_f`, for each name `#ifndef mini_d`, `#define mini_d`, `#endif`,
and `#endif`. -/
def depGroup (b : Nat × List Nat) : List PpDir :=
  .ifdef b.1 :: (b.2.flatMap fun d => [PpDir.ifndef d, .define d, .endif]) ++ [.endif]

/-- minilib.h:82-86, without `#ifndef`. -/
def getoptGroup (b : Nat × List Nat) : List PpDir := .ifdef b.1 :: b.2.map PpDir.define ++ [.endif]

/-- minilib.h:51-60. -/
def headTable : List (Nat × List Nat) := [(Sw.m_getenv, [Sw.m_environ]), (Sw.m_system, [Sw.m_environ])]

/-- minilib.h:82-86. -/
def getoptTable : Nat × List Nat := (Sw.m_getopt, [Sw.m_prints, Sw.m_strcmp, Sw.m_strchr])

/-- minilib.h:110-2191, each group with its line: the first time. -/
def depTable1 : List (Nat × List Nat) :=
  [(Sw.m_freopen, [Sw.m_open, Sw.m__fopen, Sw.m_fileno, Sw.m_close]), -- 110
   (Sw.m_setenv, [Sw.m_environ, Sw.m_getenv, Sw.m_strncmp, Sw.m_ret_errno, Sw.m_malloc, Sw.m_strcpy, Sw.m_strlen, Sw.m_stpcpy]), -- 126
   (Sw.m_gets, [Sw.m_fgets, Sw.m_fgetc, Sw.m_fileno, Sw.m_read]), -- 154
   (Sw.m_writes, [Sw.m_write]), -- 170
   (Sw.m_creat, [Sw.m_open]), -- 177
   (Sw.m_sbrk, [Sw.m_sys_brk]), -- 184
   (Sw.m_fgetsp, [Sw.m_fgetc]), -- 191
   (Sw.m_endpwent, [Sw.m_munmap, Sw.m_pwent]), -- 198
   (Sw.m_putc, [Sw.m_fputc]), -- 208
   (Sw.m__fopen, [Sw.m_open, Sw.m_fileno, Sw.m_close]), -- 215
   (Sw.m_itohex, [Sw.m__itohex]), -- 228
   (Sw.m_dirname, [Sw.m_strlen]), -- 235
   (Sw.m_brk, [Sw.m_sys_brk]), -- 242
   (Sw.m_endgrent, [Sw.m_munmap, Sw.m_pwent]), -- 249
   (Sw.m_eputs, [Sw.m_eprintl, Sw.m_eprint, Sw.m_strlen, Sw.m_write]), -- 259
   (Sw.m_unlockpt, [Sw.m_termio, Sw.m_ioctl]), -- 275
   (Sw.m_malloc_brk, [Sw.m_sbrk, Sw.m_getbrk]), -- 285
   (Sw.m_raise, [Sw.m_getpid, Sw.m_kill]), -- 295
   (Sw.m_prints, [Sw.m__mprints, Sw.m_dprints]), -- 305
   (Sw.m_fputc, [Sw.m_fileno, Sw.m_write]), -- 315
   (Sw.m_dief, [Sw.m_execve, Sw.m_errno_str, Sw.m_exit, Sw.m_exit_errno, Sw.m__die, Sw.m_fprintf]), -- 325
   (Sw.m_getpwent, [Sw.m_open, Sw.m_userdb]), -- 347
   (Sw.m_strncmp, [Sw.m__strcmp]), -- 357
   (Sw.m_fsetpos, [Sw.m_lseek]), -- 364
   (Sw.m_fprintf, [Sw.m_write, Sw.m_snprintf, Sw.m_fileno, Sw.m_globals, Sw.m_getpid, Sw.m_kill]), -- 371
   (Sw.m_strrchr, [Sw.m_strchrnul]), -- 393
   (Sw.m_assert, [Sw.m_abort, Sw.m_ewrites]), -- 400
   (Sw.m_snprintf, [Sw.m_write, Sw.m_vsnprintf]), -- 410
   (Sw.m_fprintfs, [Sw.m_fputs, Sw.m_write, Sw.m_fileno, Sw.m_strlen]), -- 420
   (Sw.m_exit_errno, [Sw.m_execve, Sw.m_errno_str, Sw.m_exit, Sw.m_ewrites]), -- 436
   (Sw.m_getc, [Sw.m_fgetc, Sw.m_fileno, Sw.m_read]), -- 452
   (Sw.m_group_write, [Sw.m_write, Sw.m_ewrite, Sw.m_writes, Sw.m_ewrites, Sw.m_fwrites, Sw.m_ewritesl, Sw.m_writesl]), -- 465
   (Sw.m_strcasecmp, [Sw.m__strcasecmp]), -- 490
   (Sw.m_getgrent, [Sw.m_open, Sw.m_userdb, Sw.m_pwent]), -- 497
   (Sw.m_puts, [Sw.m_printl, Sw.m_print, Sw.m_strlen, Sw.m_write, Sw.m_printf]), -- 510
   (Sw.m_where, [Sw.m_access, Sw.m_getenv]), -- 529
   (Sw.m_group_printf, [Sw.m_printf, Sw.m_eprintf, Sw.m_fprintf, Sw.m_itodec, Sw.m_ltodec, Sw.m_uitodec, Sw.m_snprintf, Sw.m_atoi, Sw.m_itohex, Sw.m_uitohex, Sw.m_itoHEX, Sw.m_uitoHEX, Sw.m_strlen, Sw.m_globals, Sw.m_fileno, Sw.m_vsnprintf, Sw.m_sprintf, Sw.m_dprints, Sw.m_itooct]), -- 539
   (Sw.m_printl, [Sw.m_write]), -- 600
   (Sw.m_strtok, [Sw.m_strtok_r]), -- 607
   (Sw.m_eprint, [Sw.m_write, Sw.m_strlen]), -- 614
   (Sw.m_grantpt, [Sw.m_termio, Sw.m_fstat, Sw.m_ptsname]), -- 624
   (Sw.m_strdup, [Sw.m_malloc, Sw.m_strcpy, Sw.m_strlen]), -- 637
   (Sw.m_getchar, [Sw.m_fgetc, Sw.m_fileno, Sw.m_read]), -- 650
   (Sw.m_sigsuspend, [Sw.m_rt_sigsuspend]), -- 663
   (Sw.m_printf, [Sw.m_fprintf, Sw.m_fileno, Sw.m_snprintf, Sw.m_vsnprintf, Sw.m_write, Sw.m_strlen]), -- 670
   (Sw.m_cfmakeraw, [Sw.m_termio]), -- 692
   (Sw.m_fgets, [Sw.m_fgetc]), -- 699
   (Sw.m_fprints, [Sw.m_fileno, Sw.m_write, Sw.m_strlen, Sw.m_dprints]), -- 706
   (Sw.m_htonl, [Sw.m_network]), -- 722
   (Sw.m_strtoll, [Sw.m_strtol]), -- 729
   (Sw.m_fdopen, [Sw.m_open, Sw.m__fopen, Sw.m_fileno, Sw.m_close]), -- 736
   (Sw.m_sleep, [Sw.m_nanosleep]), -- 752
   (Sw.m_err, [Sw.m_strerror, Sw.m_exit, Sw.m_fprintf, Sw.m_errno, Sw.m_fprints]), -- 759
   (Sw.m_qsort, [Sw.m_swap]), -- 778
   (Sw.m_die_if, [Sw.m_execve, Sw.m_errno_str, Sw.m_exit, Sw.m_ewritesl, Sw.m_exit_errno, Sw.m_die]), -- 785
   (Sw.m_dtodec, [Sw.m_itodec, Sw.m_uitodec]), -- 807
   (Sw.m_vexec_q, [Sw.m_seterrno, Sw.m_waitpid, Sw.m_vfork, Sw.m_execve, Sw.m_exit]), -- 817
   (Sw.m_fwrites, [Sw.m_write]), -- 836
   (Sw.m_system, [Sw.m_execve, Sw.m_vfork, Sw.m_environ, Sw.m_ewrites, Sw.m_waitpid]), -- 843
   (Sw.m_sigprocmask, [Sw.m_rt_sigprocmask]), -- 862
   (Sw.m_abort, [Sw.m_raise, Sw.m_signal]), -- 869
   (Sw.m_opendirp, [Sw.m_open, Sw.m_close, Sw.m_malloc, Sw.m_dirbuf, Sw.m_free]), -- 879
   (Sw.m_die, [Sw.m_execve, Sw.m_errno_str, Sw.m_exit, Sw.m_ewritesl, Sw.m_exit_errno, Sw.m__die]), -- 898
   (Sw.m_execl, [Sw.m_environ, Sw.m_execve]), -- 920
   (Sw.m_htons, [Sw.m_network]), -- 930
   (Sw.m_inet_ntoa, [Sw.m_network]), -- 937
   (Sw.m__strcasecmp, [Sw.m_tolower]), -- 944
   (Sw.m_fwritesl, [Sw.m_write]), -- 951
   (Sw.m_vfprintf, [Sw.m_fprintf, Sw.m_fileno, Sw.m_snprintf, Sw.m_vsnprintf, Sw.m_write, Sw.m_strlen]), -- 958
   (Sw.m_map_protected, [Sw.m_mmap, Sw.m_mprotect]), -- 980
   (Sw.m_putchar, [Sw.m_fputc]), -- 990
   (Sw.m_dies_if, [Sw.m_execve, Sw.m_errno_str, Sw.m_exit, Sw.m_exit_errno, Sw.m_dies]), -- 997
   (Sw.m_realloc, [Sw.m_free, Sw.m_malloc]), -- 1016
   (Sw.m_itodec, [Sw.m_uitodec]), -- 1026
   (Sw.m_recv, [Sw.m_recvfrom]), -- 1033
   (Sw.m_snprintfs, [Sw.m_0]), -- 1040
   (Sw.m_ltodec, [Sw.m_ultodec]), -- 1047
   (Sw.m_strcmp, [Sw.m__strcmp]), -- 1054
   (Sw.m_alphasort, [Sw.m_strcmp]), -- 1061
   (Sw.m_print, [Sw.m_write, Sw.m_strlen]), -- 1068
   (Sw.m_fprint, [Sw.m_fprintf, Sw.m_fileno, Sw.m_snprintf, Sw.m_vsnprintf, Sw.m_write, Sw.m_strlen]), -- 1078
   (Sw.m_getgrnam, [Sw.m_grent, Sw.m_setgrent, Sw.m_getgrent, Sw.m_mmap, Sw.m_userdb_open, Sw.m_ewrites, Sw.m_open, Sw.m_strcmp, Sw.m_token_s, Sw.m_token_i]), -- 1100
   (Sw.m_fwrite, [Sw.m_write]), -- 1134
   (Sw.m_strncasecmp, [Sw.m__strcasecmp]), -- 1141
   (Sw.m_fread, [Sw.m_read]), -- 1148
   (Sw.m_fopen, [Sw.m_open, Sw.m__fopen, Sw.m_fileno, Sw.m_close]), -- 1155
   (Sw.m_match_ext2, [Sw.m__match_ext2]), -- 1171
   (Sw.m_vsprintf, [Sw.m_0]), -- 1178
   (Sw.m_malloc, [Sw.m_0]), -- 1185
   (Sw.m_execv, [Sw.m_environ, Sw.m_execve]), -- 1192
   (Sw.m_ntohs, [Sw.m_htons, Sw.m_network]), -- 1202
   (Sw.m_getenv, [Sw.m_environ]), -- 1212
   (Sw.m_getpwnam, [Sw.m_pwent, Sw.m_mmap, Sw.m_userdb_open, Sw.m_ewrites, Sw.m_open, Sw.m_strcmp, Sw.m_token_s, Sw.m_token_i]), -- 1219
   (Sw.m_unmap_protected, [Sw.m_munmap, Sw.m_mprotect]), -- 1247
   (Sw.m_eprints, [Sw.m_dprints]), -- 1257
   (Sw.m_ewrites, [Sw.m_write]), -- 1264
   (Sw.m_sprintf, [Sw.m_snprintf, Sw.m_vsnprintf, Sw.m_strlen]), -- 1271
   (Sw.m_printfs, [Sw.m_fprintfs, Sw.m_fputs, Sw.m_strlen]), -- 1284
   (Sw.m_vsnprintf, [Sw.m_write, Sw.m_strlen, Sw.m_raise, Sw.m_getpid, Sw.m_kill]), -- 1297
   (Sw.m_writesl, [Sw.m_write]), -- 1316
   (Sw.m_setbrk, [Sw.m_brk]), -- 1323
   (Sw.m_fclose, [Sw.m_close]), -- 1330
   (Sw.m_strndup, [Sw.m_malloc, Sw.m_stplcpy, Sw.m_strlen]), -- 1337
   (Sw.m_putenv, [Sw.m_environ, Sw.m_getenv, Sw.m_strncmp, Sw.m_ret_errno]), -- 1350
   (Sw.m_warn, [Sw.m_fprintf]), -- 1366
   (Sw.m_wait, [Sw.m_wait4]), -- 1373
   (Sw.m_error, [Sw.m_strerror, Sw.m_exit, Sw.m_fprintf, Sw.m_fprints]), -- 1380
   (Sw.m_waitpid, [Sw.m_wait4]), -- 1396
   (Sw.m_itoHEX, [Sw.m__itohex]), -- 1403
   (Sw.m_ftell, [Sw.m_lseek]), -- 1410
   (Sw.m_free, [Sw.m_brk, Sw.m_getbrk]), -- 1417
   (Sw.m_execvpe, [Sw.m_environ, Sw.m_execve, Sw.m_getenv, Sw.m_access, Sw.m_where]), -- 1427
   (Sw.m__mprints, [Sw.m_dprints, Sw.m_write]), -- 1446
   (Sw.m_fgetc, [Sw.m_fileno, Sw.m_read]), -- 1456
   (Sw.m_ewritesl, [Sw.m_write]), -- 1466
   (Sw.m_dief_if, [Sw.m_execve, Sw.m_errno_str, Sw.m_exit, Sw.m_ewritesl, Sw.m_exit_errno, Sw.m_die]), -- 1473
   (Sw.m_fgetpos, [Sw.m_ftell]), -- 1495
   (Sw.m_posix_openpt, [Sw.m_termio, Sw.m_open]), -- 1502
   (Sw.m_printsl, [Sw.m__mprints, Sw.m_dprints]), -- 1512
   (Sw.m_ptsname, [Sw.m_termio, Sw.m_ptsname_r, Sw.m_snprintf, Sw.m_itodec, Sw.m_ioctl, Sw.m_sprintf]), -- 1522
   (Sw.m_eprintsl, [Sw.m_dprints]), -- 1544
   (Sw.m_opendir, [Sw.m_open, Sw.m_close, Sw.m_malloc, Sw.m_dirbuf, Sw.m_opendirp, Sw.m_ewrites, Sw.m_free]), -- 1551
   (Sw.m_match, [Sw.m__match]), -- 1576
   (Sw.m_ether_ntoa, [Sw.m_network]), -- 1583
   (Sw.m_dprints, [Sw.m_write]), -- 1590
   (Sw.m_itobin, [Sw.m__itobin]), -- 1597
   (Sw.m_rewind, [Sw.m_fseek]), -- 1604
   (Sw.m_usleep, [Sw.m_nanosleep]), -- 1611
   (Sw.m_dprintf, [Sw.m_write, Sw.m_vsnprintf, Sw.m_snprintf]), -- 1618
   (Sw.m_readdir, [Sw.m_dirbuf, Sw.m_getdents]), -- 1631
   (Sw.m_fseek, [Sw.m_lseek]), -- 1641
   (Sw.m_perror, [Sw.m_fputs, Sw.m_strerror, Sw.m_strlen, Sw.m_errno]), -- 1648
   (Sw.m_getusergroups, [Sw.m_getpwuid, Sw.m_setgrent, Sw.m_strcmp, Sw.m_grent, Sw.m_pwent, Sw.m_getgrent]), -- 1664
   (Sw.m_errx, [Sw.m_exit, Sw.m_fprintf]), -- 1686
   (Sw.m_tcsetattr, [Sw.m_termio, Sw.m_ioctl]), -- 1696
   (Sw.m_userdb_open, [Sw.m_globals, Sw.m_ewrites, Sw.m_fstat, Sw.m_close]), -- 1706
   (Sw.m_execvp, [Sw.m_environ, Sw.m_execvpe, Sw.m_access, Sw.m_getenv, Sw.m_access]), -- 1722
   (Sw.m_gethostname, [Sw.m_network, Sw.m_uname]), -- 1741
   (Sw.m_atexit, [Sw.m_globals]), -- 1751
   (Sw.m_getgrouplist, [Sw.m_getusergroups]), -- 1758
   (Sw.m_eprintl, [Sw.m_write]), -- 1765
   (Sw.m_inet_aton, [Sw.m_network]), -- 1772
   (Sw.m_ptsname_r, [Sw.m_termio, Sw.m_snprintf, Sw.m_itodec, Sw.m_ioctl, Sw.m_open, Sw.m_sprintf]), -- 1779
   (Sw.m_fputs, [Sw.m_strlen, Sw.m_fileno, Sw.m_write]), -- 1801
   (Sw.m_memcmp, [Sw.m_0]), -- 1814
   (Sw.m_signal, [Sw.m_sigaction, Sw.m_ewrites, Sw.m_rt_sigaction]), -- 1821
   (Sw.m_eprintf, [Sw.m_fprintfs, Sw.m_fputs, Sw.m_strlen]), -- 1834
   (Sw.m_sigaction, [Sw.m_memcpy, Sw.m_rt_sigaction]), -- 1847
   (Sw.m_term_width, [Sw.m_termio, Sw.m_getenv, Sw.m_environ]), -- 1857
   (Sw.m_fgetud, [Sw.m_fgetc]), -- 1870
   (Sw.m_unsetenv, [Sw.m_environ, Sw.m_getenv, Sw.m_strncmp, Sw.m_ret_errno]), -- 1877
   (Sw.m_closedir, [Sw.m_free]), -- 1893
   (Sw.m_dies, [Sw.m_execve, Sw.m_errno_str, Sw.m_exit, Sw.m_exit_errno, Sw.m__die, Sw.m_eprintsl, Sw.m_dprints]), -- 1900
   (Sw.m_tcgetattr, [Sw.m_termio, Sw.m_ioctl]), -- 1925
   (Sw.m_getgrgid, [Sw.m_grent, Sw.m_setgrent, Sw.m_getgrent, Sw.m_mmap, Sw.m_userdb_open, Sw.m_ewrites, Sw.m_open, Sw.m_strcmp, Sw.m_token_s, Sw.m_token_i, Sw.m_pwent]), -- 1935
   (Sw.m_vexec, [Sw.m_seterrno, Sw.m_waitpid, Sw.m_exit, Sw.m_execve, Sw.m_vfork]), -- 1972
   (Sw.m_isatty, [Sw.m_termio, Sw.m_tcgetattr, Sw.m_ioctl]), -- 1991
   (Sw.m_strcat, [Sw.m_strlen]), -- 2004
   (Sw.m_fgetsn, [Sw.m_fgetc]), -- 2011
   (Sw.m_eprintfs, [Sw.m_fprintfs, Sw.m_fputs, Sw.m_strlen]), -- 2018
   (Sw.m_getgroups, [Sw.m_getpwuid, Sw.m_setgrent, Sw.m_strcmp, Sw.m_grent, Sw.m_pwent, Sw.m_getusergroups, Sw.m_getuid]), -- 2031
   (Sw.m_group_print, [Sw.m_print, Sw.m_prints, Sw.m_printsl, Sw.m_printl, Sw.m_eprint, Sw.m_eprintl, Sw.m_eprintsl, Sw.m_eprints, Sw.m_printfs, Sw.m_eprintfs, Sw.m_puts, Sw.m_eputs, Sw.m_strlen, Sw.m__mprints, Sw.m_dprints]), -- 2056
   (Sw.m_scandir, [Sw.m_errno, Sw.m_malloc_brk, Sw.m_realloc, Sw.m_free, Sw.m_memcpy, Sw.m_dirbuf, Sw.m_seterrno, Sw.m_getbrk, Sw.m_sbrk, Sw.m_prints, Sw.m_open, Sw.m_sprintf, Sw.m_qsort, Sw.m_getdents]), -- 2105
   (Sw.m_fgetul, [Sw.m_fgetc]), -- 2151
   (Sw.m_getpwuid, [Sw.m_pwent, Sw.m_mmap, Sw.m_passwdfile_open, Sw.m_ewrites, Sw.m_open, Sw.m_token_s, Sw.m_token_i, Sw.m_setpwent]), -- 2158
   (Sw.m_strchr, [Sw.m_strchrnul])] -- 2186

/-- minilib.h:2193-4274: the same groups in another order, the second time. -/
def depTable2 : List (Nat × List Nat) :=
  [(Sw.m_freopen, [Sw.m_open, Sw.m__fopen, Sw.m_fileno, Sw.m_close]), -- 2193
   (Sw.m_setenv, [Sw.m_environ, Sw.m_getenv, Sw.m_strncmp, Sw.m_ret_errno, Sw.m_malloc, Sw.m_strcpy, Sw.m_strlen, Sw.m_stpcpy]), -- 2209
   (Sw.m_gets, [Sw.m_fgets, Sw.m_fgetc, Sw.m_fileno, Sw.m_read]), -- 2237
   (Sw.m_writes, [Sw.m_write]), -- 2253
   (Sw.m_creat, [Sw.m_open]), -- 2260
   (Sw.m_sbrk, [Sw.m_sys_brk]), -- 2267
   (Sw.m_fgetsp, [Sw.m_fgetc]), -- 2274
   (Sw.m_endpwent, [Sw.m_munmap, Sw.m_pwent]), -- 2281
   (Sw.m_putc, [Sw.m_fputc]), -- 2291
   (Sw.m__fopen, [Sw.m_open, Sw.m_fileno, Sw.m_close]), -- 2298
   (Sw.m_itohex, [Sw.m__itohex]), -- 2311
   (Sw.m_dirname, [Sw.m_strlen]), -- 2318
   (Sw.m_brk, [Sw.m_sys_brk]), -- 2325
   (Sw.m_endgrent, [Sw.m_munmap, Sw.m_pwent]), -- 2332
   (Sw.m_eputs, [Sw.m_eprintl, Sw.m_eprint, Sw.m_strlen, Sw.m_write]), -- 2342
   (Sw.m_unlockpt, [Sw.m_termio, Sw.m_ioctl]), -- 2358
   (Sw.m_malloc_brk, [Sw.m_sbrk, Sw.m_getbrk]), -- 2368
   (Sw.m_raise, [Sw.m_getpid, Sw.m_kill]), -- 2378
   (Sw.m_prints, [Sw.m__mprints, Sw.m_dprints]), -- 2388
   (Sw.m_fputc, [Sw.m_fileno, Sw.m_write]), -- 2398
   (Sw.m_dief, [Sw.m_execve, Sw.m_errno_str, Sw.m_exit, Sw.m_exit_errno, Sw.m__die, Sw.m_fprintf]), -- 2408
   (Sw.m_getpwent, [Sw.m_open, Sw.m_userdb]), -- 2430
   (Sw.m_strncmp, [Sw.m__strcmp]), -- 2440
   (Sw.m_fsetpos, [Sw.m_lseek]), -- 2447
   (Sw.m_fprintf, [Sw.m_write, Sw.m_snprintf, Sw.m_fileno, Sw.m_globals, Sw.m_getpid, Sw.m_kill]), -- 2454
   (Sw.m_strrchr, [Sw.m_strchrnul]), -- 2476
   (Sw.m_assert, [Sw.m_abort, Sw.m_ewrites]), -- 2483
   (Sw.m_snprintf, [Sw.m_write, Sw.m_vsnprintf]), -- 2493
   (Sw.m_fprintfs, [Sw.m_fputs, Sw.m_write, Sw.m_fileno, Sw.m_strlen]), -- 2503
   (Sw.m_exit_errno, [Sw.m_execve, Sw.m_errno_str, Sw.m_exit, Sw.m_ewrites]), -- 2519
   (Sw.m_getc, [Sw.m_fgetc, Sw.m_fileno, Sw.m_read]), -- 2535
   (Sw.m_group_write, [Sw.m_write, Sw.m_ewrite, Sw.m_writes, Sw.m_ewrites, Sw.m_fwrites, Sw.m_ewritesl, Sw.m_writesl]), -- 2548
   (Sw.m_strcasecmp, [Sw.m__strcasecmp]), -- 2573
   (Sw.m_getgrent, [Sw.m_open, Sw.m_userdb, Sw.m_pwent]), -- 2580
   (Sw.m_puts, [Sw.m_printl, Sw.m_print, Sw.m_strlen, Sw.m_write, Sw.m_printf]), -- 2593
   (Sw.m_where, [Sw.m_access, Sw.m_getenv]), -- 2612
   (Sw.m_group_printf, [Sw.m_printf, Sw.m_eprintf, Sw.m_fprintf, Sw.m_itodec, Sw.m_ltodec, Sw.m_uitodec, Sw.m_snprintf, Sw.m_atoi, Sw.m_itohex, Sw.m_uitohex, Sw.m_itoHEX, Sw.m_uitoHEX, Sw.m_strlen, Sw.m_globals, Sw.m_fileno, Sw.m_vsnprintf, Sw.m_sprintf, Sw.m_dprints, Sw.m_itooct]), -- 2622
   (Sw.m_printl, [Sw.m_write]), -- 2683
   (Sw.m_strtok, [Sw.m_strtok_r]), -- 2690
   (Sw.m_eprint, [Sw.m_write, Sw.m_strlen]), -- 2697
   (Sw.m_grantpt, [Sw.m_termio, Sw.m_fstat, Sw.m_ptsname]), -- 2707
   (Sw.m_strdup, [Sw.m_malloc, Sw.m_strcpy, Sw.m_strlen]), -- 2720
   (Sw.m_getchar, [Sw.m_fgetc, Sw.m_fileno, Sw.m_read]), -- 2733
   (Sw.m_sigsuspend, [Sw.m_rt_sigsuspend]), -- 2746
   (Sw.m_printf, [Sw.m_fprintf, Sw.m_fileno, Sw.m_snprintf, Sw.m_vsnprintf, Sw.m_write, Sw.m_strlen]), -- 2753
   (Sw.m_cfmakeraw, [Sw.m_termio]), -- 2775
   (Sw.m_fgets, [Sw.m_fgetc]), -- 2782
   (Sw.m_fprints, [Sw.m_fileno, Sw.m_write, Sw.m_strlen, Sw.m_dprints]), -- 2789
   (Sw.m_htonl, [Sw.m_network]), -- 2805
   (Sw.m_strtoll, [Sw.m_strtol]), -- 2812
   (Sw.m_fdopen, [Sw.m_open, Sw.m__fopen, Sw.m_fileno, Sw.m_close]), -- 2819
   (Sw.m_sleep, [Sw.m_nanosleep]), -- 2835
   (Sw.m_err, [Sw.m_strerror, Sw.m_exit, Sw.m_fprintf, Sw.m_errno, Sw.m_fprints]), -- 2842
   (Sw.m_qsort, [Sw.m_swap]), -- 2861
   (Sw.m_die_if, [Sw.m_execve, Sw.m_errno_str, Sw.m_exit, Sw.m_ewritesl, Sw.m_exit_errno, Sw.m_die]), -- 2868
   (Sw.m_dtodec, [Sw.m_itodec, Sw.m_uitodec]), -- 2890
   (Sw.m_vexec_q, [Sw.m_seterrno, Sw.m_waitpid, Sw.m_vfork, Sw.m_execve, Sw.m_exit]), -- 2900
   (Sw.m_fwrites, [Sw.m_write]), -- 2919
   (Sw.m_system, [Sw.m_execve, Sw.m_vfork, Sw.m_environ, Sw.m_ewrites, Sw.m_waitpid]), -- 2926
   (Sw.m_sigprocmask, [Sw.m_rt_sigprocmask]), -- 2945
   (Sw.m_abort, [Sw.m_raise, Sw.m_signal]), -- 2952
   (Sw.m_opendirp, [Sw.m_open, Sw.m_close, Sw.m_malloc, Sw.m_dirbuf, Sw.m_free]), -- 2962
   (Sw.m_die, [Sw.m_execve, Sw.m_errno_str, Sw.m_exit, Sw.m_ewritesl, Sw.m_exit_errno, Sw.m__die]), -- 2981
   (Sw.m_execl, [Sw.m_environ, Sw.m_execve]), -- 3003
   (Sw.m_htons, [Sw.m_network]), -- 3013
   (Sw.m_inet_ntoa, [Sw.m_network]), -- 3020
   (Sw.m__strcasecmp, [Sw.m_tolower]), -- 3027
   (Sw.m_fwritesl, [Sw.m_write]), -- 3034
   (Sw.m_vfprintf, [Sw.m_fprintf, Sw.m_fileno, Sw.m_snprintf, Sw.m_vsnprintf, Sw.m_write, Sw.m_strlen]), -- 3041
   (Sw.m_map_protected, [Sw.m_mmap, Sw.m_mprotect]), -- 3063
   (Sw.m_putchar, [Sw.m_fputc]), -- 3073
   (Sw.m_dies_if, [Sw.m_execve, Sw.m_errno_str, Sw.m_exit, Sw.m_exit_errno, Sw.m_dies]), -- 3080
   (Sw.m_realloc, [Sw.m_free, Sw.m_malloc]), -- 3099
   (Sw.m_itodec, [Sw.m_uitodec]), -- 3109
   (Sw.m_recv, [Sw.m_recvfrom]), -- 3116
   (Sw.m_snprintfs, [Sw.m_0]), -- 3123
   (Sw.m_ltodec, [Sw.m_ultodec]), -- 3130
   (Sw.m_strcmp, [Sw.m__strcmp]), -- 3137
   (Sw.m_alphasort, [Sw.m_strcmp]), -- 3144
   (Sw.m_print, [Sw.m_write, Sw.m_strlen]), -- 3151
   (Sw.m_fprint, [Sw.m_fprintf, Sw.m_fileno, Sw.m_snprintf, Sw.m_vsnprintf, Sw.m_write, Sw.m_strlen]), -- 3161
   (Sw.m_getgrnam, [Sw.m_grent, Sw.m_setgrent, Sw.m_getgrent, Sw.m_mmap, Sw.m_userdb_open, Sw.m_ewrites, Sw.m_open, Sw.m_strcmp, Sw.m_token_s, Sw.m_token_i]), -- 3183
   (Sw.m_fwrite, [Sw.m_write]), -- 3217
   (Sw.m_strncasecmp, [Sw.m__strcasecmp]), -- 3224
   (Sw.m_fread, [Sw.m_read]), -- 3231
   (Sw.m_fopen, [Sw.m_open, Sw.m__fopen, Sw.m_fileno, Sw.m_close]), -- 3238
   (Sw.m_match_ext2, [Sw.m__match_ext2]), -- 3254
   (Sw.m_vsprintf, [Sw.m_0]), -- 3261
   (Sw.m_malloc, [Sw.m_0]), -- 3268
   (Sw.m_execv, [Sw.m_environ, Sw.m_execve]), -- 3275
   (Sw.m_ntohs, [Sw.m_htons, Sw.m_network]), -- 3285
   (Sw.m_getenv, [Sw.m_environ]), -- 3295
   (Sw.m_getpwnam, [Sw.m_pwent, Sw.m_mmap, Sw.m_userdb_open, Sw.m_ewrites, Sw.m_open, Sw.m_strcmp, Sw.m_token_s, Sw.m_token_i]), -- 3302
   (Sw.m_unmap_protected, [Sw.m_munmap, Sw.m_mprotect]), -- 3330
   (Sw.m_eprints, [Sw.m_dprints]), -- 3340
   (Sw.m_ewrites, [Sw.m_write]), -- 3347
   (Sw.m_sprintf, [Sw.m_snprintf, Sw.m_vsnprintf, Sw.m_strlen]), -- 3354
   (Sw.m_printfs, [Sw.m_fprintfs, Sw.m_fputs, Sw.m_strlen]), -- 3367
   (Sw.m_vsnprintf, [Sw.m_write, Sw.m_strlen, Sw.m_raise, Sw.m_getpid, Sw.m_kill]), -- 3380
   (Sw.m_writesl, [Sw.m_write]), -- 3399
   (Sw.m_setbrk, [Sw.m_brk]), -- 3406
   (Sw.m_fclose, [Sw.m_close]), -- 3413
   (Sw.m_strndup, [Sw.m_malloc, Sw.m_stplcpy, Sw.m_strlen]), -- 3420
   (Sw.m_putenv, [Sw.m_environ, Sw.m_getenv, Sw.m_strncmp, Sw.m_ret_errno]), -- 3433
   (Sw.m_warn, [Sw.m_fprintf]), -- 3449
   (Sw.m_wait, [Sw.m_wait4]), -- 3456
   (Sw.m_error, [Sw.m_strerror, Sw.m_exit, Sw.m_fprintf, Sw.m_fprints]), -- 3463
   (Sw.m_waitpid, [Sw.m_wait4]), -- 3479
   (Sw.m_itoHEX, [Sw.m__itohex]), -- 3486
   (Sw.m_ftell, [Sw.m_lseek]), -- 3493
   (Sw.m_free, [Sw.m_brk, Sw.m_getbrk]), -- 3500
   (Sw.m_execvpe, [Sw.m_environ, Sw.m_execve, Sw.m_getenv, Sw.m_access, Sw.m_where]), -- 3510
   (Sw.m__mprints, [Sw.m_dprints, Sw.m_write]), -- 3529
   (Sw.m_fgetc, [Sw.m_fileno, Sw.m_read]), -- 3539
   (Sw.m_ewritesl, [Sw.m_write]), -- 3549
   (Sw.m_dief_if, [Sw.m_execve, Sw.m_errno_str, Sw.m_exit, Sw.m_ewritesl, Sw.m_exit_errno, Sw.m_die]), -- 3556
   (Sw.m_fgetpos, [Sw.m_ftell]), -- 3578
   (Sw.m_posix_openpt, [Sw.m_termio, Sw.m_open]), -- 3585
   (Sw.m_printsl, [Sw.m__mprints, Sw.m_dprints]), -- 3595
   (Sw.m_ptsname, [Sw.m_termio, Sw.m_ptsname_r, Sw.m_snprintf, Sw.m_itodec, Sw.m_ioctl, Sw.m_sprintf]), -- 3605
   (Sw.m_eprintsl, [Sw.m_dprints]), -- 3627
   (Sw.m_opendir, [Sw.m_open, Sw.m_close, Sw.m_malloc, Sw.m_dirbuf, Sw.m_opendirp, Sw.m_ewrites, Sw.m_free]), -- 3634
   (Sw.m_match, [Sw.m__match]), -- 3659
   (Sw.m_ether_ntoa, [Sw.m_network]), -- 3666
   (Sw.m_dprints, [Sw.m_write]), -- 3673
   (Sw.m_itobin, [Sw.m__itobin]), -- 3680
   (Sw.m_rewind, [Sw.m_fseek]), -- 3687
   (Sw.m_usleep, [Sw.m_nanosleep]), -- 3694
   (Sw.m_dprintf, [Sw.m_write, Sw.m_vsnprintf, Sw.m_snprintf]), -- 3701
   (Sw.m_readdir, [Sw.m_dirbuf, Sw.m_getdents]), -- 3714
   (Sw.m_fseek, [Sw.m_lseek]), -- 3724
   (Sw.m_perror, [Sw.m_fputs, Sw.m_strerror, Sw.m_strlen, Sw.m_errno]), -- 3731
   (Sw.m_getusergroups, [Sw.m_getpwuid, Sw.m_setgrent, Sw.m_strcmp, Sw.m_grent, Sw.m_pwent, Sw.m_getgrent]), -- 3747
   (Sw.m_errx, [Sw.m_exit, Sw.m_fprintf]), -- 3769
   (Sw.m_tcsetattr, [Sw.m_termio, Sw.m_ioctl]), -- 3779
   (Sw.m_userdb_open, [Sw.m_globals, Sw.m_ewrites, Sw.m_fstat, Sw.m_close]), -- 3789
   (Sw.m_execvp, [Sw.m_environ, Sw.m_execvpe, Sw.m_access, Sw.m_getenv, Sw.m_access]), -- 3805
   (Sw.m_gethostname, [Sw.m_network, Sw.m_uname]), -- 3824
   (Sw.m_atexit, [Sw.m_globals]), -- 3834
   (Sw.m_getgrouplist, [Sw.m_getusergroups]), -- 3841
   (Sw.m_eprintl, [Sw.m_write]), -- 3848
   (Sw.m_inet_aton, [Sw.m_network]), -- 3855
   (Sw.m_ptsname_r, [Sw.m_termio, Sw.m_snprintf, Sw.m_itodec, Sw.m_ioctl, Sw.m_open, Sw.m_sprintf]), -- 3862
   (Sw.m_fputs, [Sw.m_strlen, Sw.m_fileno, Sw.m_write]), -- 3884
   (Sw.m_memcmp, [Sw.m_0]), -- 3897
   (Sw.m_signal, [Sw.m_sigaction, Sw.m_ewrites, Sw.m_rt_sigaction]), -- 3904
   (Sw.m_eprintf, [Sw.m_fprintfs, Sw.m_fputs, Sw.m_strlen]), -- 3917
   (Sw.m_sigaction, [Sw.m_memcpy, Sw.m_rt_sigaction]), -- 3930
   (Sw.m_term_width, [Sw.m_termio, Sw.m_getenv, Sw.m_environ]), -- 3940
   (Sw.m_fgetud, [Sw.m_fgetc]), -- 3953
   (Sw.m_unsetenv, [Sw.m_environ, Sw.m_getenv, Sw.m_strncmp, Sw.m_ret_errno]), -- 3960
   (Sw.m_closedir, [Sw.m_free]), -- 3976
   (Sw.m_dies, [Sw.m_execve, Sw.m_errno_str, Sw.m_exit, Sw.m_exit_errno, Sw.m__die, Sw.m_eprintsl, Sw.m_dprints]), -- 3983
   (Sw.m_tcgetattr, [Sw.m_termio, Sw.m_ioctl]), -- 4008
   (Sw.m_getgrgid, [Sw.m_grent, Sw.m_setgrent, Sw.m_getgrent, Sw.m_mmap, Sw.m_userdb_open, Sw.m_ewrites, Sw.m_open, Sw.m_strcmp, Sw.m_token_s, Sw.m_token_i, Sw.m_pwent]), -- 4018
   (Sw.m_vexec, [Sw.m_seterrno, Sw.m_waitpid, Sw.m_exit, Sw.m_execve, Sw.m_vfork]), -- 4055
   (Sw.m_isatty, [Sw.m_termio, Sw.m_tcgetattr, Sw.m_ioctl]), -- 4074
   (Sw.m_strcat, [Sw.m_strlen]), -- 4087
   (Sw.m_fgetsn, [Sw.m_fgetc]), -- 4094
   (Sw.m_eprintfs, [Sw.m_fprintfs, Sw.m_fputs, Sw.m_strlen]), -- 4101
   (Sw.m_getgroups, [Sw.m_getpwuid, Sw.m_setgrent, Sw.m_strcmp, Sw.m_grent, Sw.m_pwent, Sw.m_getusergroups, Sw.m_getuid]), -- 4114
   (Sw.m_group_print, [Sw.m_print, Sw.m_prints, Sw.m_printsl, Sw.m_printl, Sw.m_eprint, Sw.m_eprintl, Sw.m_eprintsl, Sw.m_eprints, Sw.m_printfs, Sw.m_eprintfs, Sw.m_puts, Sw.m_eputs, Sw.m_strlen, Sw.m__mprints, Sw.m_dprints]), -- 4139
   (Sw.m_scandir, [Sw.m_errno, Sw.m_malloc_brk, Sw.m_realloc, Sw.m_free, Sw.m_memcpy, Sw.m_dirbuf, Sw.m_seterrno, Sw.m_getbrk, Sw.m_sbrk, Sw.m_prints, Sw.m_open, Sw.m_sprintf, Sw.m_qsort, Sw.m_getdents]), -- 4188
   (Sw.m_fgetul, [Sw.m_fgetc]), -- 4234
   (Sw.m_getpwuid, [Sw.m_pwent, Sw.m_mmap, Sw.m_passwdfile_open, Sw.m_ewrites, Sw.m_open, Sw.m_token_s, Sw.m_token_i, Sw.m_setpwent]), -- 4241
   (Sw.m_strchr, [Sw.m_strchrnul])] -- 4269

/-- minilib.h:51-4274, the lines with switches. -/
def minilibH : List PpDir :=
  headTable.flatMap depGroup ++ getoptGroup getoptTable ++ depTable1.flatMap depGroup ++ depTable2.flatMap depGroup

/-- The switches that are on behind minilib.h:4274, when the program has defined `S`. The headers included after that
switch on globals, pwent, grent and dirbuf, which are no functions; left out, as is `mini_buf`, which is taken as
given. -/
def switches (S : Nat → Bool) : Nat → Bool := (ppRun minilibH ⟨S, []⟩).defd

/-! ### What the sources say -/

/-- The names behind `//+depends` at each function, macro or group; file and line of the function. -/
def tagTable : List (Nat × List Nat) :=
  [(Sw.m__fopen, [Sw.m_open, Sw.m_fileno, Sw.m_close]), -- src/streams/_fopen.c:11
   (Sw.m__mprints, [Sw.m_dprints, Sw.m_write]), -- include/prints.h:9
   (Sw.m__strcasecmp, [Sw.m_tolower]), -- src/string/strcasecmp.c:4
   (Sw.m_abort, [Sw.m_raise, Sw.m_signal]), -- src/process/abort.c:2
   (Sw.m_alphasort, [Sw.m_strcmp]), -- src/directories/alphasort.c:6
   (Sw.m_assert, [Sw.m_abort, Sw.m_ewrites]), -- macros/assert.h:3
   (Sw.m_atexit, [Sw.m_globals]), -- src/process/atexit.c:6
   (Sw.m_brk, [Sw.m_sys_brk]), -- src/memory/brk.c:7
   (Sw.m_cfmakeraw, [Sw.m_termio]), -- src/termios/cfmakeraw.c:2
   (Sw.m_closedir, [Sw.m_free]), -- src/directories/closedir.c:5
   (Sw.m_creat, [Sw.m_open]), -- src/file/creat.c:4
   (Sw.m_die, [Sw.m_execve, Sw.m_errno_str, Sw.m_exit, Sw.m_ewritesl, Sw.m_exit_errno, Sw.m__die]), -- src/process/die.c:11
   (Sw.m_die_if, [Sw.m_execve, Sw.m_errno_str, Sw.m_exit, Sw.m_ewritesl, Sw.m_exit_errno, Sw.m_die]), -- src/process/die.c:59
   (Sw.m_dief, [Sw.m_execve, Sw.m_errno_str, Sw.m_exit, Sw.m_exit_errno, Sw.m__die, Sw.m_fprintf]), -- src/process/die.c:20
   (Sw.m_dief_if, [Sw.m_execve, Sw.m_errno_str, Sw.m_exit, Sw.m_ewritesl, Sw.m_exit_errno, Sw.m_die]), -- src/process/die.c:69
   (Sw.m_dies, [Sw.m_execve, Sw.m_errno_str, Sw.m_exit, Sw.m_exit_errno, Sw.m__die, Sw.m_eprintsl, Sw.m_dprints]), -- src/process/die.c:30
   (Sw.m_dies_if, [Sw.m_execve, Sw.m_errno_str, Sw.m_exit, Sw.m_exit_errno, Sw.m_dies]), -- src/process/die.c:80
   (Sw.m_dirname, [Sw.m_strlen]), -- src/directories/dirname.c:7
   (Sw.m_dprintf, [Sw.m_write, Sw.m_vsnprintf, Sw.m_snprintf]), -- src/output/dprintf.c:4
   (Sw.m_dprints, [Sw.m_write]), -- src/output/dprints.c:13
   (Sw.m_dtodec, [Sw.m_itodec, Sw.m_uitodec]), -- src/conversions/dtodec.c:9
   (Sw.m_endgrent, [Sw.m_munmap, Sw.m_pwent]), -- src/userdb/endgrent.c:3
   (Sw.m_endpwent, [Sw.m_munmap, Sw.m_pwent]), -- src/userdb/endpwent.c:3
   (Sw.m_eprint, [Sw.m_write, Sw.m_strlen]), -- include/prints.h:57
   (Sw.m_eprintf, [Sw.m_fprintfs, Sw.m_fputs, Sw.m_strlen]), -- include/prints.h:133
   (Sw.m_eprintfs, [Sw.m_fprintfs, Sw.m_fputs, Sw.m_strlen]), -- include/prints.h:128
   (Sw.m_eprintl, [Sw.m_write]), -- include/prints.h:66
   (Sw.m_eprints, [Sw.m_dprints]), -- include/prints.h:25
   (Sw.m_eprintsl, [Sw.m_dprints]), -- include/prints.h:47
   (Sw.m_eputs, [Sw.m_eprintl, Sw.m_eprint, Sw.m_strlen, Sw.m_write]), -- include/prints.h:76
   (Sw.m_err, [Sw.m_strerror, Sw.m_exit, Sw.m_fprintf, Sw.m_errno, Sw.m_fprints]), -- src/process/error.h:19
   (Sw.m_error, [Sw.m_strerror, Sw.m_exit, Sw.m_fprintf, Sw.m_fprints]), -- src/process/error.h:12
   (Sw.m_errx, [Sw.m_exit, Sw.m_fprintf]), -- src/process/error.h:26
   (Sw.m_ether_ntoa, [Sw.m_network]), -- src/network/ether_ntoa.c:2
   (Sw.m_ewrites, [Sw.m_write]), -- include/prints.h:87
   (Sw.m_ewritesl, [Sw.m_write]), -- include/prints.h:100
   (Sw.m_execl, [Sw.m_environ, Sw.m_execve]), -- src/exec/execl.c:5
   (Sw.m_execv, [Sw.m_environ, Sw.m_execve]), -- src/exec/_execv.c:3
   (Sw.m_execvp, [Sw.m_environ, Sw.m_execvpe, Sw.m_access, Sw.m_getenv]), -- src/exec/_execvp.c:3
   (Sw.m_execvpe, [Sw.m_environ, Sw.m_execve, Sw.m_getenv, Sw.m_access, Sw.m_where]), -- src/exec/execvp.c:10
   (Sw.m_exit_errno, [Sw.m_execve, Sw.m_errno_str, Sw.m_exit, Sw.m_ewrites]), -- src/process/exit_errno.c:16
   (Sw.m_fclose, [Sw.m_close]), -- include/mini_fstream.h:65
   (Sw.m_fdopen, [Sw.m_open, Sw.m__fopen, Sw.m_fileno, Sw.m_close]), -- src/streams/fdopen.c:5
   (Sw.m_fgetc, [Sw.m_fileno, Sw.m_read]), -- src/streams/fgetc.c:4
   (Sw.m_fgetpos, [Sw.m_ftell]), -- include/mini_fstream.h:116
   (Sw.m_fgets, [Sw.m_fgetc]), -- src/streams/fgets.c:3
   (Sw.m_fgetsn, [Sw.m_fgetc]), -- src/streams/fgetsn.c:3
   (Sw.m_fgetsp, [Sw.m_fgetc]), -- src/streams/fgetsp.c:6
   (Sw.m_fgetud, [Sw.m_fgetc]), -- src/streams/fgetud.c:4
   (Sw.m_fgetul, [Sw.m_fgetc]), -- src/streams/fgetul.c:4
   (Sw.m_fopen, [Sw.m_open, Sw.m__fopen, Sw.m_fileno, Sw.m_close]), -- src/streams/fopen.c:7
   (Sw.m_fprint, [Sw.m_fprintf, Sw.m_fileno, Sw.m_snprintf, Sw.m_vsnprintf, Sw.m_write, Sw.m_strlen]), -- include/mini_fstream.h:83
   (Sw.m_fprintf, [Sw.m_write, Sw.m_snprintf, Sw.m_fileno, Sw.m_globals, Sw.m_getpid, Sw.m_kill]), -- src/output/fprintf.c:32
   (Sw.m_fprintfs, [Sw.m_fputs, Sw.m_write, Sw.m_fileno, Sw.m_strlen]), -- src/output/fprintfs.c:7
   (Sw.m_fprints, [Sw.m_fileno, Sw.m_write, Sw.m_strlen, Sw.m_dprints]), -- include/prints.h:33
   (Sw.m_fputc, [Sw.m_fileno, Sw.m_write]), -- include/fputc.h:8
   (Sw.m_fputs, [Sw.m_strlen, Sw.m_fileno, Sw.m_write]), -- include/fputs.h:17
   (Sw.m_fread, [Sw.m_read]), -- include/mini_fstream.h:151
   (Sw.m_free, [Sw.m_brk, Sw.m_getbrk]), -- src/memory/malloc.c:167
   (Sw.m_freopen, [Sw.m_open, Sw.m__fopen, Sw.m_fileno, Sw.m_close]), -- src/streams/freopen.c:6
   (Sw.m_fseek, [Sw.m_lseek]), -- include/mini_fstream.h:133
   (Sw.m_fsetpos, [Sw.m_lseek]), -- include/mini_fstream.h:122
   (Sw.m_ftell, [Sw.m_lseek]), -- include/mini_fstream.h:110
   (Sw.m_fwrite, [Sw.m_write]), -- include/mini_fstream.h:94
   (Sw.m_fwrites, [Sw.m_write]), -- include/prints.h:107
   (Sw.m_fwritesl, [Sw.m_write]), -- include/prints.h:114
   (Sw.m_getc, [Sw.m_fgetc, Sw.m_fileno, Sw.m_read]), -- include/fgetc.h:8
   (Sw.m_getchar, [Sw.m_fgetc, Sw.m_fileno, Sw.m_read]), -- include/fgetc.h:11
   (Sw.m_getenv, [Sw.m_environ]), -- src/system/getenv.c:4
   (Sw.m_getgrent, [Sw.m_open, Sw.m_userdb, Sw.m_pwent]), -- src/userdb/getgrent.c:3
   (Sw.m_getgrgid, [Sw.m_grent, Sw.m_setgrent, Sw.m_getgrent, Sw.m_mmap, Sw.m_userdb_open, Sw.m_ewrites, Sw.m_open, Sw.m_strcmp, Sw.m_token_s, Sw.m_token_i, Sw.m_pwent]), -- src/userdb/getgrgid.c:6
   (Sw.m_getgrnam, [Sw.m_grent, Sw.m_setgrent, Sw.m_getgrent, Sw.m_mmap, Sw.m_userdb_open, Sw.m_ewrites, Sw.m_open, Sw.m_strcmp, Sw.m_token_s, Sw.m_token_i]), -- src/userdb/getgrnam.c:6
   (Sw.m_getgrouplist, [Sw.m_getusergroups]), -- src/userdb/getgrouplist.c:4
   (Sw.m_getgroups, [Sw.m_getpwuid, Sw.m_setgrent, Sw.m_strcmp, Sw.m_grent, Sw.m_pwent, Sw.m_getusergroups, Sw.m_getuid]), -- src/userdb/getgroups.c:7
   (Sw.m_gethostname, [Sw.m_network, Sw.m_uname]), -- src/network/gethostname.c:3
   (Sw.m_getpwent, [Sw.m_open, Sw.m_userdb]), -- src/userdb/getpwent.c:3
   (Sw.m_getpwnam, [Sw.m_pwent, Sw.m_mmap, Sw.m_userdb_open, Sw.m_ewrites, Sw.m_open, Sw.m_strcmp, Sw.m_token_s, Sw.m_token_i]), -- src/userdb/getpwnam.c:6
   (Sw.m_getpwuid, [Sw.m_pwent, Sw.m_mmap, Sw.m_passwdfile_open, Sw.m_ewrites, Sw.m_open, Sw.m_token_s, Sw.m_token_i, Sw.m_setpwent]), -- src/userdb/getpwuid.c:6
   (Sw.m_gets, [Sw.m_fgets, Sw.m_fgetc, Sw.m_fileno, Sw.m_read]), -- src/streams/gets.c:3
   (Sw.m_getusergroups, [Sw.m_getpwuid, Sw.m_setgrent, Sw.m_strcmp, Sw.m_grent, Sw.m_pwent, Sw.m_getgrent]), -- src/userdb/getusergroups.c:7
   (Sw.m_grantpt, [Sw.m_termio, Sw.m_fstat, Sw.m_ptsname]), -- src/termios/pty.c:48
   (Sw.m_group_print, [Sw.m_print, Sw.m_prints, Sw.m_printsl, Sw.m_printl, Sw.m_eprint, Sw.m_eprintl, Sw.m_eprintsl, Sw.m_eprints, Sw.m_printfs, Sw.m_eprintfs, Sw.m_puts, Sw.m_eputs, Sw.m_strlen, Sw.m__mprints, Sw.m_dprints]), -- macros/defgroups.h:12
   (Sw.m_group_printf, [Sw.m_printf, Sw.m_eprintf, Sw.m_fprintf, Sw.m_itodec, Sw.m_ltodec, Sw.m_uitodec, Sw.m_snprintf, Sw.m_atoi, Sw.m_itohex, Sw.m_uitohex, Sw.m_itoHEX, Sw.m_uitoHEX, Sw.m_strlen, Sw.m_globals, Sw.m_fileno, Sw.m_vsnprintf, Sw.m_sprintf, Sw.m_dprints, Sw.m_itooct]), -- macros/defgroups.h:28
   (Sw.m_group_write, [Sw.m_write, Sw.m_ewrite, Sw.m_writes, Sw.m_ewrites, Sw.m_fwrites, Sw.m_ewritesl, Sw.m_writesl]), -- macros/defgroups.h:22
   (Sw.m_htonl, [Sw.m_network]), -- src/network/htonl.c:4
   (Sw.m_htons, [Sw.m_network]), -- src/network/htons.c:2
   (Sw.m_inet_aton, [Sw.m_network]), -- src/network/inet_aton.c:2
   (Sw.m_inet_ntoa, [Sw.m_network]), -- src/network/inet_ntoa.c:6
   (Sw.m_isatty, [Sw.m_termio, Sw.m_tcgetattr, Sw.m_ioctl]), -- src/termios/isatty.c:4
   (Sw.m_itoHEX, [Sw.m__itohex]), -- src/conversions/itohex.c:64
   (Sw.m_itobin, [Sw.m__itobin]), -- src/conversions/itobin.c:46
   (Sw.m_itodec, [Sw.m_uitodec]), -- src/conversions/itodec.c:122
   (Sw.m_itohex, [Sw.m__itohex]), -- src/conversions/itohex.c:52
   (Sw.m_ltodec, [Sw.m_ultodec]), -- src/conversions/ltodec.c:2
   (Sw.m_malloc_brk, [Sw.m_sbrk, Sw.m_getbrk]), -- src/memory/malloc_brk.c:15
   (Sw.m_map_protected, [Sw.m_mmap, Sw.m_mprotect]), -- src/memory/map_protected.c:21
   (Sw.m_match, [Sw.m__match]), -- src/match/match.c:82
   (Sw.m_match_ext2, [Sw.m__match_ext2]), -- src/match/match_ext2.c:305
   (Sw.m_ntohs, [Sw.m_htons, Sw.m_network]), -- src/network/macros.h:2
   (Sw.m_opendir, [Sw.m_open, Sw.m_close, Sw.m_malloc, Sw.m_dirbuf, Sw.m_opendirp, Sw.m_ewrites, Sw.m_free]), -- src/directories/opendir.c:9
   (Sw.m_opendirp, [Sw.m_open, Sw.m_close, Sw.m_malloc, Sw.m_dirbuf, Sw.m_free]), -- src/directories/opendirp.c:4
   (Sw.m_perror, [Sw.m_fputs, Sw.m_strerror, Sw.m_strlen, Sw.m_errno]), -- src/output/perror.c:3
   (Sw.m_posix_openpt, [Sw.m_termio, Sw.m_open]), -- src/termios/pty.c:7
   (Sw.m_print, [Sw.m_write, Sw.m_strlen]), -- include/prints.h:53
   (Sw.m_printf, [Sw.m_fprintf, Sw.m_fileno, Sw.m_snprintf, Sw.m_vsnprintf, Sw.m_write, Sw.m_strlen]), -- include/mini_fstream.h:79
   (Sw.m_printfs, [Sw.m_fprintfs, Sw.m_fputs, Sw.m_strlen]), -- include/prints.h:122
   (Sw.m_printl, [Sw.m_write]), -- include/prints.h:62
   (Sw.m_prints, [Sw.m__mprints, Sw.m_dprints]), -- include/prints.h:17
   (Sw.m_printsl, [Sw.m__mprints, Sw.m_dprints]), -- include/prints.h:41
   (Sw.m_ptsname, [Sw.m_termio, Sw.m_ptsname_r, Sw.m_snprintf, Sw.m_itodec, Sw.m_ioctl, Sw.m_sprintf]), -- src/termios/pty.c:33
   (Sw.m_ptsname_r, [Sw.m_termio, Sw.m_snprintf, Sw.m_itodec, Sw.m_ioctl, Sw.m_open, Sw.m_sprintf]), -- src/termios/pty.c:20
   (Sw.m_putc, [Sw.m_fputc]), -- include/fputc.h:18
   (Sw.m_putchar, [Sw.m_fputc]), -- include/fputc.h:15
   (Sw.m_putenv, [Sw.m_environ, Sw.m_getenv, Sw.m_strncmp, Sw.m_ret_errno]), -- src/system/putenv.c:9
   (Sw.m_puts, [Sw.m_printl, Sw.m_print, Sw.m_strlen, Sw.m_write, Sw.m_printf]), -- include/prints.h:72
   (Sw.m_qsort, [Sw.m_swap]), -- src/sort/qsort.c:34
   (Sw.m_raise, [Sw.m_getpid, Sw.m_kill]), -- src/process/sigaction.c:144
   (Sw.m_readdir, [Sw.m_dirbuf, Sw.m_getdents]), -- src/directories/readdir.c:9
   (Sw.m_realloc, [Sw.m_free, Sw.m_malloc]), -- src/memory/malloc.c:239
   (Sw.m_recv, [Sw.m_recvfrom]), -- src/network/recv.c:2
   (Sw.m_rewind, [Sw.m_fseek]), -- include/mini_fstream.h:142
   (Sw.m_sbrk, [Sw.m_sys_brk]), -- src/memory/sbrk.c:8
   (Sw.m_scandir, [Sw.m_errno, Sw.m_malloc_brk, Sw.m_realloc, Sw.m_free, Sw.m_memcpy, Sw.m_dirbuf, Sw.m_seterrno, Sw.m_getbrk, Sw.m_sbrk, Sw.m_prints, Sw.m_open, Sw.m_sprintf, Sw.m_qsort, Sw.m_getdents]), -- src/directories/scandir.c:29
   (Sw.m_setbrk, [Sw.m_brk]), -- src/memory/setbrk.c:5
   (Sw.m_setenv, [Sw.m_environ, Sw.m_getenv, Sw.m_strncmp, Sw.m_ret_errno, Sw.m_malloc, Sw.m_strcpy, Sw.m_strlen, Sw.m_stpcpy]), -- src/system/setenv.c:14
   (Sw.m_sigaction, [Sw.m_memcpy, Sw.m_rt_sigaction]), -- src/process/sigaction.c:116
   (Sw.m_signal, [Sw.m_sigaction, Sw.m_ewrites, Sw.m_rt_sigaction]), -- src/process/signal.c:4
   (Sw.m_sigprocmask, [Sw.m_rt_sigprocmask]), -- src/process/sigaction.c:60
   (Sw.m_sigsuspend, [Sw.m_rt_sigsuspend]), -- src/process/sigaction.c:52
   (Sw.m_sleep, [Sw.m_nanosleep]), -- src/process/sleep.c:9
   (Sw.m_snprintf, [Sw.m_write, Sw.m_vsnprintf]), -- src/output/snprintf.c:4
   (Sw.m_sprintf, [Sw.m_snprintf, Sw.m_vsnprintf, Sw.m_strlen]), -- src/output/sprintf.c:8
   (Sw.m_strcasecmp, [Sw.m__strcasecmp]), -- src/string/strcasecmp.c:25
   (Sw.m_strcat, [Sw.m_strlen]), -- src/string/strcat.c:4
   (Sw.m_strchr, [Sw.m_strchrnul]), -- src/string/strchr.c:5
   (Sw.m_strcmp, [Sw.m__strcmp]), -- src/string/strcmp.c:35
   (Sw.m_strdup, [Sw.m_malloc, Sw.m_strcpy, Sw.m_strlen]), -- src/string/strdup.c:6
   (Sw.m_strncasecmp, [Sw.m__strcasecmp]), -- src/string/strcasecmp.c:33
   (Sw.m_strncmp, [Sw.m__strcmp]), -- src/string/strcmp.c:43
   (Sw.m_strndup, [Sw.m_malloc, Sw.m_stplcpy, Sw.m_strlen]), -- src/string/strndup.c:4
   (Sw.m_strrchr, [Sw.m_strchrnul]), -- src/string/strrchr.c:3
   (Sw.m_strtok, [Sw.m_strtok_r]), -- src/string/strtok.c:2
   (Sw.m_strtoll, [Sw.m_strtol]), -- src/string/strtoll.c:7
   (Sw.m_system, [Sw.m_execve, Sw.m_vfork, Sw.m_environ, Sw.m_ewrites, Sw.m_waitpid]), -- src/exec/system.c:3
   (Sw.m_tcgetattr, [Sw.m_termio, Sw.m_ioctl]), -- src/termios/tcgetattr.c:11
   (Sw.m_tcsetattr, [Sw.m_termio, Sw.m_ioctl]), -- src/termios/tcsetattr.c:11
   (Sw.m_term_width, [Sw.m_termio, Sw.m_getenv, Sw.m_environ]), -- src/termios/term_width.c:6
   (Sw.m_unlockpt, [Sw.m_termio, Sw.m_ioctl]), -- src/termios/pty.c:13
   (Sw.m_unmap_protected, [Sw.m_munmap, Sw.m_mprotect]), -- src/memory/unmap_protected.c:8
   (Sw.m_unsetenv, [Sw.m_environ, Sw.m_getenv, Sw.m_strncmp, Sw.m_ret_errno]), -- src/system/unsetenv.c:9
   (Sw.m_userdb_open, [Sw.m_globals, Sw.m_ewrites, Sw.m_fstat, Sw.m_close]), -- src/userdb/userdb_open.c:2
   (Sw.m_usleep, [Sw.m_nanosleep]), -- src/process/sleep.c:30
   (Sw.m_vexec, [Sw.m_seterrno, Sw.m_waitpid, Sw.m_exit, Sw.m_execve, Sw.m_vfork]), -- src/exec/vexec.c:5
   (Sw.m_vexec_q, [Sw.m_seterrno, Sw.m_waitpid, Sw.m_vfork, Sw.m_execve, Sw.m_exit]), -- src/exec/vexec_q.c:5
   (Sw.m_vfprintf, [Sw.m_fprintf, Sw.m_fileno, Sw.m_snprintf, Sw.m_vsnprintf, Sw.m_write, Sw.m_strlen]), -- include/mini_fstream.h:88
   (Sw.m_vsnprintf, [Sw.m_write, Sw.m_strlen, Sw.m_raise, Sw.m_getpid, Sw.m_kill]), -- src/output/vsnprintf.c:17
   (Sw.m_vsprintf, [Sw.m_write, Sw.m_vsnprintf]), -- src/output/vsprintf.c:9
   (Sw.m_wait, [Sw.m_wait4]), -- src/process/wait.c:7
   (Sw.m_waitpid, [Sw.m_wait4]), -- src/process/wait.c:15
   (Sw.m_warn, [Sw.m_fprintf]), -- src/process/error.h:32
   (Sw.m_where, [Sw.m_access, Sw.m_getenv]), -- src/exec/where.c:3
   (Sw.m_writes, [Sw.m_write]), -- include/prints.h:83
   (Sw.m_writesl, [Sw.m_write])] -- include/prints.h:93

/-- The calls in the code of each function or macro: caller, the switch of the `#ifdef` around the call, callee; file and
line of the caller. Calls of `exit`, `tolower` and `OPTFENCE` are left out, they are always defined; so are the
unfinished match_ext2, contrib/, and calls of the startup code. Variables (errno, environ, mlgl) are not in the table. -/
def callTable : List (Nat × Option Nat × Nat) :=
  [(Sw.m_ewrites, none, Sw.m_write), -- minilib.h:4773
   (Sw.m_exit_errno, none, Sw.m_errno_str), -- src/process/exit_errno.c:17
   (Sw.m_exit_errno, none, Sw.m_execve), -- src/process/exit_errno.c:17
   (Sw.m_exit_errno, none, Sw.m_ewrites), -- src/process/exit_errno.c:17
   (Sw.m_exit_errno, none, Sw.m_write), -- src/process/exit_errno.c:17
   (Sw.m__die, none, Sw.m_exit_errno), -- src/process/die.c:36
   (Sw.m__fopen, none, Sw.m_close), -- src/streams/_fopen.c:12
   (Sw.m__fopen, none, Sw.m_fileno), -- src/streams/_fopen.c:12
   (Sw.m__fopen, none, Sw.m_open), -- src/streams/_fopen.c:12
   (Sw.m_dprints, none, Sw.m_write), -- src/output/dprints.c:14
   (Sw.m__mprints, none, Sw.m_dprints), -- minilib.h:4850
   (Sw.m_raise, none, Sw.m_kill), -- src/process/sigaction.c:145
   (Sw.m_raise, none, Sw.m_getpid), -- src/process/sigaction.c:145
   (Sw.m_sigaction, none, Sw.m_rt_sigaction), -- src/process/sigaction.c:117
   (Sw.m_signal, none, Sw.m_sigaction), -- src/process/signal.c:5
   (Sw.m_signal, none, Sw.m_ewrites), -- src/process/signal.c:5
   (Sw.m_abort, none, Sw.m_raise), -- src/process/abort.c:3
   (Sw.m_abort, none, Sw.m_signal), -- src/process/abort.c:3
   (Sw.m_strcmp, none, Sw.m__strcmp), -- src/string/strcmp.c:36
   (Sw.m_alphasort, none, Sw.m_strcmp), -- src/directories/alphasort.c:7
   (Sw.m_assert, none, Sw.m_ewrites), -- macros/assert.h:7
   (Sw.m_assert, none, Sw.m_abort), -- macros/assert.h:7
   (Sw.m_brk, none, Sw.m_sys_brk), -- src/memory/brk.c:8
   (Sw.m_bsd_cksum, none, Sw.m_bsd_cksumblock), -- src/file/cksum.c:31
   (Sw.m_malloc, none, Sw.m_write), -- src/memory/malloc.c:142
   (Sw.m_calloc, none, Sw.m_malloc), -- src/memory/calloc.c:2
   (Sw.m_getbrk, none, Sw.m_sys_brk), -- src/memory/getbrk.c:6
   (Sw.m_free, some Sw.m_malloc_brk, Sw.m_getbrk), -- src/memory/malloc.c:168
   (Sw.m_free, some Sw.m_malloc_brk, Sw.m_brk), -- src/memory/malloc.c:168
   (Sw.m_closedir, none, Sw.m_close), -- src/directories/closedir.c:6
   (Sw.m_closedir, none, Sw.m_free), -- src/directories/closedir.c:6
   (Sw.m_creat, none, Sw.m_open), -- src/file/creat.c:5
   (Sw.m_ewritesl, none, Sw.m_write), -- minilib.h:4865
   (Sw.m_die, none, Sw.m_ewritesl), -- minilib.h:4374
   (Sw.m_die, none, Sw.m_exit_errno), -- minilib.h:4374
   (Sw.m_die_if, none, Sw.m_die), -- minilib.h:6637
   (Sw.m_itodec, none, Sw.m_uitodec), -- src/conversions/itodec.c:123
   (Sw.m_ltodec, none, Sw.m_ultodec), -- src/conversions/ltodec.c:3
   (Sw.m_dtodec, none, Sw.m_itodec), -- src/conversions/dtodec.c:10
   (Sw.m_dtodec, none, Sw.m_uitodec), -- src/conversions/dtodec.c:10
   (Sw.m_itohex, none, Sw.m__itohex), -- src/conversions/itohex.c:53
   (Sw.m_itoHEX, none, Sw.m__itohex), -- src/conversions/itohex.c:65
   (Sw.m_itobin, none, Sw.m__itobin), -- minilib.h:6206
   (Sw.m_vsnprintf, some Sw.m_itodec, Sw.m_uitodec), -- src/output/vsnprintf.c:18
   (Sw.m_vsnprintf, some Sw.m_ultodec, Sw.m_ultodec), -- src/output/vsnprintf.c:18
   (Sw.m_vsnprintf, some Sw.m_itodec, Sw.m_itodec), -- src/output/vsnprintf.c:18
   (Sw.m_vsnprintf, some Sw.m_ltodec, Sw.m_ltodec), -- src/output/vsnprintf.c:18
   (Sw.m_vsnprintf, some Sw.m_dtodec, Sw.m_dtodec), -- src/output/vsnprintf.c:18
   (Sw.m_vsnprintf, some Sw.m_itohex, Sw.m_itohex), -- src/output/vsnprintf.c:18
   (Sw.m_vsnprintf, some Sw.m_itoHEX, Sw.m_itoHEX), -- src/output/vsnprintf.c:18
   (Sw.m_vsnprintf, some Sw.m_itooct, Sw.m_itooct), -- src/output/vsnprintf.c:18
   (Sw.m_vsnprintf, some Sw.m_itobin, Sw.m_itobin), -- src/output/vsnprintf.c:18
   (Sw.m_vsnprintf, some Sw.m_atoi, Sw.m_atoi), -- src/output/vsnprintf.c:18
   (Sw.m_vsnprintf, none, Sw.m_strlen), -- src/output/vsnprintf.c:18
   (Sw.m_vsnprintf, none, Sw.m_raise), -- src/output/vsnprintf.c:18
   (Sw.m_snprintf, none, Sw.m_vsnprintf), -- src/output/snprintf.c:5
   (Sw.m_fprintf, none, Sw.m_write), -- minilib.h:4515
   (Sw.m_fprintf, none, Sw.m_fileno), -- minilib.h:4515
   (Sw.m_fprintf, none, Sw.m_snprintf), -- minilib.h:4515
   (Sw.m_dief, none, Sw.m_fprintf), -- minilib.h:6412
   (Sw.m_dief, none, Sw.m_exit_errno), -- minilib.h:6412
   (Sw.m_dief_if, none, Sw.m_dief), -- minilib.h:5941
   (Sw.m_eprintsl, none, Sw.m_dprints), -- minilib.h:4875
   (Sw.m_dies, none, Sw.m_eprintsl), -- minilib.h:4681
   (Sw.m_dies, none, Sw.m_exit_errno), -- minilib.h:4681
   (Sw.m_dies_if, none, Sw.m_dies), -- minilib.h:6866
   (Sw.m_dirname, none, Sw.m_strlen), -- src/directories/dirname.c:8
   (Sw.m_dprintf, none, Sw.m_vsnprintf), -- src/output/dprintf.c:5
   (Sw.m_dprintf, none, Sw.m_write), -- src/output/dprintf.c:5
   (Sw.m_endgrent, none, Sw.m_munmap), -- src/userdb/endgrent.c:4
   (Sw.m_endpwent, none, Sw.m_munmap), -- src/userdb/endpwent.c:4
   (Sw.m_eprint, none, Sw.m_write), -- minilib.h:4311
   (Sw.m_eprint, none, Sw.m_strlen), -- minilib.h:4311
   (Sw.m_eprintf, none, Sw.m_fprintf), -- minilib.h:4665
   (Sw.m_fputs, none, Sw.m_write), -- include/fputs.h:18
   (Sw.m_fputs, none, Sw.m_fileno), -- include/fputs.h:18
   (Sw.m_fputs, none, Sw.m_strlen), -- include/fputs.h:18
   (Sw.m_fprintfs, none, Sw.m_fileno), -- src/output/fprintfs.c:8
   (Sw.m_fprintfs, none, Sw.m_write), -- src/output/fprintfs.c:8
   (Sw.m_fprintfs, none, Sw.m_fputs), -- src/output/fprintfs.c:8
   (Sw.m_eprintfs, none, Sw.m_fprintfs), -- minilib.h:4692
   (Sw.m_eprintl, none, Sw.m_write), -- minilib.h:4639
   (Sw.m_eprints, none, Sw.m_dprints), -- minilib.h:4757
   (Sw.m_eputs, none, Sw.m_eprint), -- minilib.h:4479
   (Sw.m_eputs, none, Sw.m_eprintl), -- minilib.h:4479
   (Sw.m_fprints, none, Sw.m_dprints), -- minilib.h:4340
   (Sw.m_fprints, none, Sw.m_fileno), -- minilib.h:4340
   (Sw.m_strerror, some Sw.m_verbose_errstr, Sw.m_verbose_errstr), -- src/string/strerror.c:7
   (Sw.m_err, none, Sw.m_fprintf), -- minilib.h:6926
   (Sw.m_err, none, Sw.m_fprints), -- minilib.h:6926
   (Sw.m_err, none, Sw.m_strerror), -- minilib.h:6926
   (Sw.m_error, none, Sw.m_fprintf), -- minilib.h:5951
   (Sw.m_error, none, Sw.m_fprints), -- minilib.h:5951
   (Sw.m_error, none, Sw.m_strerror), -- minilib.h:5951
   (Sw.m_errx, none, Sw.m_fprintf), -- minilib.h:6512
   (Sw.m_execl, none, Sw.m_execve), -- src/exec/execl.c:6
   (Sw.m_execv, none, Sw.m_execve), -- src/exec/_execv.c:4
   (Sw.m_where, none, Sw.m_getenv), -- src/exec/where.c:4
   (Sw.m_where, none, Sw.m_access), -- src/exec/where.c:4
   (Sw.m_execvpe, none, Sw.m_execve), -- src/exec/execvp.c:11
   (Sw.m_execvpe, none, Sw.m_where), -- src/exec/execvp.c:11
   (Sw.m_execvp, none, Sw.m_execvpe), -- src/exec/_execvp.c:4
   (Sw.m_fclose, none, Sw.m_close), -- include/mini_fstream.h:64
   (Sw.m_fclose, none, Sw.m_fileno), -- include/mini_fstream.h:64
   (Sw.m_fdopen, none, Sw.m__fopen), -- src/streams/fdopen.c:6
   (Sw.m_fexecve, none, Sw.m_execveat), -- include/fexecve.h:4
   (Sw.m_fexecveat, none, Sw.m_execveat), -- include/fexecveat.h:4
   (Sw.m_fgetc, none, Sw.m_read), -- src/streams/fgetc.c:5
   (Sw.m_fgetc, none, Sw.m_fileno), -- src/streams/fgetc.c:5
   (Sw.m_ftell, none, Sw.m_lseek), -- include/mini_fstream.h:106
   (Sw.m_ftell, none, Sw.m_fileno), -- include/mini_fstream.h:106
   (Sw.m_fgetpos, none, Sw.m_ftell), -- include/mini_fstream.h:112
   (Sw.m_fgets, none, Sw.m_fgetc), -- src/streams/fgets.c:4
   (Sw.m_fgetsn, none, Sw.m_fgetc), -- src/streams/fgetsn.c:4
   (Sw.m_fgetsp, none, Sw.m_fgetc), -- src/streams/fgetsp.c:7
   (Sw.m_fgetud, none, Sw.m_fgetc), -- src/streams/fgetud.c:5
   (Sw.m_fgetul, none, Sw.m_fgetc), -- src/streams/fgetul.c:5
   (Sw.m_fopen, none, Sw.m__fopen), -- src/streams/fopen.c:8
   (Sw.m_fprint, none, Sw.m_fprintf), -- minilib.h:6291
   (Sw.m_fputc, none, Sw.m_write), -- include/fputc.h:9
   (Sw.m_fputc, none, Sw.m_fileno), -- include/fputc.h:9
   (Sw.m_fread, none, Sw.m_read), -- include/mini_fstream.h:147
   (Sw.m_fread, none, Sw.m_fileno), -- include/mini_fstream.h:147
   (Sw.m_free_brk, none, Sw.m_getbrk), -- src/memory/freebrk.c:9
   (Sw.m_free_brk, none, Sw.m_brk), -- src/memory/freebrk.c:9
   (Sw.m_freopen, none, Sw.m__fopen), -- src/streams/freopen.c:7
   (Sw.m_fseek, none, Sw.m_lseek), -- include/mini_fstream.h:129
   (Sw.m_fseek, none, Sw.m_fileno), -- include/mini_fstream.h:129
   (Sw.m_fsetpos, none, Sw.m_lseek), -- include/mini_fstream.h:118
   (Sw.m_fsetpos, none, Sw.m_fileno), -- include/mini_fstream.h:118
   (Sw.m_fwrite, none, Sw.m_write), -- include/mini_fstream.h:90
   (Sw.m_fwrite, none, Sw.m_fileno), -- include/mini_fstream.h:90
   (Sw.m_fwrites, none, Sw.m_write), -- minilib.h:4364
   (Sw.m_fwritesl, none, Sw.m_write), -- minilib.h:5721
   (Sw.m_getc, none, Sw.m_fgetc), -- minilib.h:6981
   (Sw.m_getchar, none, Sw.m_fgetc), -- minilib.h:6036
   (Sw.m_userdb_open, none, Sw.m_open), -- src/userdb/userdb_open.c:3
   (Sw.m_userdb_open, none, Sw.m_ewrites), -- src/userdb/userdb_open.c:3
   (Sw.m_userdb_open, none, Sw.m_fstat), -- src/userdb/userdb_open.c:3
   (Sw.m_userdb_open, none, Sw.m_mmap), -- src/userdb/userdb_open.c:3
   (Sw.m_userdb_open, none, Sw.m_close), -- src/userdb/userdb_open.c:3
   (Sw.m_getgrent, none, Sw.m_userdb_open), -- src/userdb/getgrent.c:4
   (Sw.m_getgrent, none, Sw.m_token_s), -- src/userdb/getgrent.c:4
   (Sw.m_getgrent, none, Sw.m_token_i), -- src/userdb/getgrent.c:4
   (Sw.m_getgrent, none, Sw.m_ewrites), -- src/userdb/getgrent.c:4
   (Sw.m_getgrgid, none, Sw.m_userdb_open), -- src/userdb/getgrgid.c:7
   (Sw.m_getgrgid, none, Sw.m_ewrites), -- src/userdb/getgrgid.c:7
   (Sw.m_getgrgid, none, Sw.m_setgrent), -- src/userdb/getgrgid.c:7
   (Sw.m_getgrgid, none, Sw.m_getgrent), -- src/userdb/getgrgid.c:7
   (Sw.m_getgrnam, none, Sw.m_userdb_open), -- src/userdb/getgrnam.c:7
   (Sw.m_getgrnam, none, Sw.m_ewrites), -- src/userdb/getgrnam.c:7
   (Sw.m_getgrnam, none, Sw.m_strcmp), -- src/userdb/getgrnam.c:7
   (Sw.m_getgrnam, none, Sw.m_setgrent), -- src/userdb/getgrnam.c:7
   (Sw.m_getgrnam, none, Sw.m_getgrent), -- src/userdb/getgrnam.c:7
   (Sw.m_getusergroups, none, Sw.m_setgrent), -- src/userdb/getusergroups.c:8
   (Sw.m_getusergroups, none, Sw.m_getgrent), -- src/userdb/getusergroups.c:8
   (Sw.m_getusergroups, none, Sw.m_strcmp), -- src/userdb/getusergroups.c:8
   (Sw.m_getgrouplist, none, Sw.m_getusergroups), -- src/userdb/getgrouplist.c:5
   (Sw.m_getpwuid, none, Sw.m_userdb_open), -- src/userdb/getpwuid.c:7
   (Sw.m_getpwuid, none, Sw.m_token_s), -- src/userdb/getpwuid.c:7
   (Sw.m_getpwuid, none, Sw.m_token_i), -- src/userdb/getpwuid.c:7
   (Sw.m_getgroups, none, Sw.m_getuid), -- src/userdb/getgroups.c:8
   (Sw.m_getgroups, none, Sw.m_getpwuid), -- src/userdb/getgroups.c:8
   (Sw.m_getgroups, none, Sw.m_getusergroups), -- src/userdb/getgroups.c:8
   (Sw.m_gethostname, none, Sw.m_uname), -- src/network/gethostname.c:4
   (Sw.m_getpwent, none, Sw.m_userdb_open), -- src/userdb/getpwent.c:4
   (Sw.m_getpwent, none, Sw.m_token_s), -- src/userdb/getpwent.c:4
   (Sw.m_getpwent, none, Sw.m_token_i), -- src/userdb/getpwent.c:4
   (Sw.m_getpwnam, none, Sw.m_userdb_open), -- src/userdb/getpwnam.c:7
   (Sw.m_getpwnam, none, Sw.m_strcmp), -- src/userdb/getpwnam.c:7
   (Sw.m_getpwnam, none, Sw.m_token_s), -- src/userdb/getpwnam.c:7
   (Sw.m_getpwnam, none, Sw.m_token_i), -- src/userdb/getpwnam.c:7
   (Sw.m_gets, none, Sw.m_fgets), -- minilib.h:5545
   (Sw.m_sprintf, none, Sw.m_snprintf), -- src/output/sprintf.c:9
   (Sw.m_ptsname_r, none, Sw.m_ioctl), -- src/termios/pty.c:21
   (Sw.m_ptsname_r, none, Sw.m_sprintf), -- src/termios/pty.c:21
   (Sw.m_ptsname, none, Sw.m_ptsname_r), -- src/termios/pty.c:34
   (Sw.m_grantpt, none, Sw.m_fstat), -- src/termios/pty.c:49
   (Sw.m_grantpt, none, Sw.m_chmod), -- src/termios/pty.c:49
   (Sw.m_grantpt, none, Sw.m_ptsname), -- src/termios/pty.c:49
   (Sw.m_initgroups, none, Sw.m_getpwnam), -- src/userdb/initgroups.c:2
   (Sw.m_initgroups, none, Sw.m_getusergroups), -- src/userdb/initgroups.c:2
   (Sw.m_initgroups, none, Sw.m_setgroups), -- src/userdb/initgroups.c:2
   (Sw.m_initgroups, none, Sw.m_setgid), -- src/userdb/initgroups.c:2
   (Sw.m_tcgetattr, none, Sw.m_ioctl), -- src/termios/tcgetattr.c:12
   (Sw.m_isatty, none, Sw.m_tcgetattr), -- src/termios/isatty.c:5
   (Sw.m_killpg, none, Sw.m_kill), -- src/process/killpg.c:2
   (Sw.m_sbrk, none, Sw.m_sys_brk), -- src/memory/sbrk.c:9
   (Sw.m_sbrk, none, Sw.m_getbrk), -- src/memory/sbrk.c:9
   (Sw.m_malloc_brk, none, Sw.m_sbrk), -- src/memory/malloc_brk.c:16
   (Sw.m_map_protected, none, Sw.m_mmap), -- src/memory/map_protected.c:22
   (Sw.m_map_protected, none, Sw.m_mprotect), -- src/memory/map_protected.c:22
   (Sw.m_match, none, Sw.m__match), -- src/match/match.c:83
   (Sw.m_mkfifo, none, Sw.m_mknod), -- include/mkfifo.h:4
   (Sw.m_ntohl, none, Sw.m_htonl), -- minilib.h:5635
   (Sw.m_ntohs, none, Sw.m_htons), -- minilib.h:6851
   (Sw.m_opendirp, none, Sw.m_open), -- src/directories/opendirp.c:5
   (Sw.m_opendir, none, Sw.m_ewrites), -- src/directories/opendir.c:10
   (Sw.m_opendir, none, Sw.m_opendirp), -- src/directories/opendir.c:10
   (Sw.m_opendir, none, Sw.m_free), -- src/directories/opendir.c:10
   (Sw.m_perror, none, Sw.m_fputs), -- src/output/perror.c:4
   (Sw.m_perror, none, Sw.m_strerror), -- src/output/perror.c:4
   (Sw.m_posix_openpt, none, Sw.m_open), -- src/termios/pty.c:8
   (Sw.m_print, none, Sw.m_write), -- minilib.h:4737
   (Sw.m_print, none, Sw.m_strlen), -- minilib.h:4737
   (Sw.m_printf, none, Sw.m_fprintf), -- minilib.h:4326
   (Sw.m_printfs, none, Sw.m_fprintfs), -- minilib.h:4788
   (Sw.m_printl, none, Sw.m_write), -- minilib.h:4316
   (Sw.m_prints, none, Sw.m__mprints), -- minilib.h:4494
   (Sw.m_printsl, none, Sw.m__mprints), -- minilib.h:4885
   (Sw.m_putc, none, Sw.m_fputc), -- minilib.h:5540
   (Sw.m_putchar, none, Sw.m_fputc), -- minilib.h:6311
   (Sw.m_strncmp, none, Sw.m__strcmp), -- src/string/strcmp.c:44
   (Sw.m_putenv, none, Sw.m_ret_errno), -- src/system/putenv.c:10
   (Sw.m_putenv, none, Sw.m_strncmp), -- src/system/putenv.c:10
   (Sw.m_puts, none, Sw.m_print), -- minilib.h:4582
   (Sw.m_puts, none, Sw.m_printl), -- minilib.h:4582
   (Sw.m_qsort, none, Sw.m_swap), -- src/sort/qsort.c:35
   (Sw.m_readdir, none, Sw.m_getdents), -- src/directories/readdir.c:10
   (Sw.m_realloc, none, Sw.m_free), -- src/memory/malloc.c:240
   (Sw.m_realloc, none, Sw.m_malloc), -- src/memory/malloc.c:240
   (Sw.m_realloc, some Sw.m_malloc_brk, Sw.m_getbrk), -- src/memory/malloc.c:240
   (Sw.m_realloc, some Sw.m_malloc_brk, Sw.m_brk), -- src/memory/malloc.c:240
   (Sw.m_realloc, none, Sw.m_write), -- src/memory/malloc.c:240
   (Sw.m_recv, none, Sw.m_recvfrom), -- src/network/recv.c:3
   (Sw.m_rewind, none, Sw.m_fseek), -- include/mini_fstream.h:138
   (Sw.m_rewinddir, none, Sw.m_lseek), -- src/directories/rewinddir.c:2
   (Sw.m_scandir, none, Sw.m_open), -- src/directories/scandir.c:30
   (Sw.m_scandir, none, Sw.m_seterrno), -- src/directories/scandir.c:30
   (Sw.m_scandir, none, Sw.m_malloc_brk), -- src/directories/scandir.c:30
   (Sw.m_scandir, none, Sw.m_getdents), -- src/directories/scandir.c:30
   (Sw.m_scandir, none, Sw.m_memcpy), -- src/directories/scandir.c:30
   (Sw.m_scandir, none, Sw.m_realloc), -- src/directories/scandir.c:30
   (Sw.m_scandir, none, Sw.m_close), -- src/directories/scandir.c:30
   (Sw.m_scandir, none, Sw.m_qsort), -- src/directories/scandir.c:30
   (Sw.m_seekdir, none, Sw.m_lseek), -- src/directories/seekdir.c:2
   (Sw.m_setbrk, none, Sw.m_brk), -- src/memory/setbrk.c:6
   (Sw.m_setenv, none, Sw.m_strlen), -- src/system/setenv.c:15
   (Sw.m_setenv, none, Sw.m_strncmp), -- src/system/setenv.c:15
   (Sw.m_setenv, none, Sw.m_malloc), -- src/system/setenv.c:15
   (Sw.m_setenv, none, Sw.m_ret_errno), -- src/system/setenv.c:15
   (Sw.m_setenv, none, Sw.m_stpcpy), -- src/system/setenv.c:15
   (Sw.m_setenv, none, Sw.m_strcpy), -- src/system/setenv.c:15
   (Sw.m_sigprocmask, none, Sw.m_rt_sigprocmask), -- src/process/sigaction.c:61
   (Sw.m_sigsuspend, none, Sw.m_rt_sigsuspend), -- src/process/sigaction.c:53
   (Sw.m_sleep, none, Sw.m_nanosleep), -- src/process/sleep.c:10
   (Sw.m_snprintfs, none, Sw.m_stpncpy), -- src/output/snprintfs.c:8
   (Sw.m_strcasecmp, none, Sw.m__strcasecmp), -- src/string/strcasecmp.c:26
   (Sw.m_strcat, none, Sw.m_strlen), -- src/string/strcat.c:5
   (Sw.m_strchr, none, Sw.m_strchrnul), -- src/string/strchr.c:6
   (Sw.m_strdup, none, Sw.m_malloc), -- src/string/strdup.c:7
   (Sw.m_strdup, none, Sw.m_strlen), -- src/string/strdup.c:7
   (Sw.m_strdup, none, Sw.m_strcpy), -- src/string/strdup.c:7
   (Sw.m_strncasecmp, none, Sw.m__strcasecmp), -- src/string/strcasecmp.c:34
   (Sw.m_strndup, none, Sw.m_strlen), -- src/string/strndup.c:5
   (Sw.m_strndup, none, Sw.m_malloc), -- src/string/strndup.c:5
   (Sw.m_strndup, none, Sw.m_stplcpy), -- src/string/strndup.c:5
   (Sw.m_strpbrk, none, Sw.m_strchrnul), -- src/string/strpbrk.c:2
   (Sw.m_strrchr, none, Sw.m_strchrnul), -- src/string/strrchr.c:4
   (Sw.m_strtok, none, Sw.m_strtok_r), -- src/string/strtok.c:3
   (Sw.m_strtoll, none, Sw.m_strtol), -- src/string/strtoll.c:8
   (Sw.m_waitpid, none, Sw.m_wait4), -- src/process/wait.c:16
   (Sw.m_system, none, Sw.m_vfork), -- src/exec/system.c:4
   (Sw.m_system, none, Sw.m_execve), -- src/exec/system.c:4
   (Sw.m_system, none, Sw.m_ewrites), -- src/exec/system.c:4
   (Sw.m_system, none, Sw.m_waitpid), -- src/exec/system.c:4
   (Sw.m_tcgetpgrp, none, Sw.m_ioctl), -- src/termios/tcgetpgrp.c:2
   (Sw.m_tcsetattr, none, Sw.m_ioctl), -- src/termios/tcsetattr.c:12
   (Sw.m_tcsetpgrp, none, Sw.m_ioctl), -- src/termios/tcsetpgrp.c:2
   (Sw.m_term_width, none, Sw.m_getenv), -- src/termios/term_width.c:7
   (Sw.m_unlockpt, none, Sw.m_ioctl), -- src/termios/pty.c:14
   (Sw.m_unmap_protected, none, Sw.m_munmap), -- src/memory/unmap_protected.c:9
   (Sw.m_usleep, none, Sw.m_nanosleep), -- src/process/sleep.c:31
   (Sw.m_vexec, none, Sw.m_vfork), -- src/exec/vexec.c:6
   (Sw.m_vexec, none, Sw.m_execve), -- src/exec/vexec.c:6
   (Sw.m_vexec, none, Sw.m_seterrno), -- src/exec/vexec.c:6
   (Sw.m_vexec, none, Sw.m_waitpid), -- src/exec/vexec.c:6
   (Sw.m_vexec_q, none, Sw.m_vfork), -- src/exec/vexec_q.c:6
   (Sw.m_vexec_q, none, Sw.m_close), -- src/exec/vexec_q.c:6
   (Sw.m_vexec_q, none, Sw.m_execve), -- src/exec/vexec_q.c:6
   (Sw.m_vexec_q, none, Sw.m_seterrno), -- src/exec/vexec_q.c:6
   (Sw.m_vexec_q, none, Sw.m_waitpid), -- src/exec/vexec_q.c:6
   (Sw.m_vfprintf, none, Sw.m_fprintf), -- minilib.h:7228
   (Sw.m_vsprintf, none, Sw.m_vsnprintf), -- src/output/vsprintf.c:10
   (Sw.m_wait, none, Sw.m_wait4), -- src/process/wait.c:8
   (Sw.m_warn, none, Sw.m_fprintf), -- minilib.h:5630
   (Sw.m_writes, none, Sw.m_write), -- minilib.h:4439
   (Sw.m_writesl, none, Sw.m_write)] -- minilib.h:4778

/-- The functions whose definition is not simply inside of `#ifdef` of the own switch: the switches each of which includes
the file (minilib.c, minilib.h), and the switches asked for in the file around the function. -/
def fileTable : List (Nat × List Nat × List Nat) :=
  [(Sw.m__die, [Sw.m_dies, Sw.m_dief_if, Sw.m_dief, Sw.m_die, Sw.m_die_if, Sw.m_dies_if, Sw.m__die], []), -- src/process/die.c
   (Sw.m__itobin, [Sw.m_itobin, Sw.m__itobin], []), -- src/conversions/itobin.c
   (Sw.m__itohex, [Sw.m_itohex, Sw.m__itohex, Sw.m_itoHEX], []), -- src/conversions/itohex.c
   (Sw.m__match, [Sw.m__match, Sw.m_match], []), -- src/match/match.c
   (Sw.m__match_ext2, [Sw.m_match_ext2, Sw.m__match_ext2], []), -- src/match/match_ext2.c
   (Sw.m__strcasecmp, [Sw.m__strcasecmp, Sw.m_strncasecmp, Sw.m_strcasecmp], []), -- src/string/strcasecmp.c
   (Sw.m__strcmp, [Sw.m_strncmp, Sw.m__strcmp, Sw.m_strcmp], []), -- src/string/strcmp.c
   (Sw.m_bsd_cksum, [Sw.m_djb_cksum, Sw.m_bsd_cksum, Sw.m_bsd_cksumblock], []), -- src/file/cksum.c
   (Sw.m_bsd_cksumblock, [Sw.m_djb_cksum, Sw.m_bsd_cksum, Sw.m_bsd_cksumblock], []), -- src/file/cksum.c
   (Sw.m_djb_cksum, [Sw.m_djb_cksum, Sw.m_bsd_cksum, Sw.m_bsd_cksumblock], []), -- src/file/cksum.c
   (Sw.m_dprints, [Sw.m_prints, Sw.m_dprints], []), -- src/output/dprints.c
   (Sw.m_fclose, [Sw.m_fseek, Sw.m_fileno, Sw.m_ftell, Sw.m_setbuf, Sw.m_fread, Sw.m_ferror, Sw.m_fflush, Sw.m_setvbuf, Sw.m_fsetpos, Sw.m_clearerr, Sw.m_fgetpos, Sw.m_fclose, Sw.m_feof, Sw.m_rewind, Sw.m_fwrite, Sw.m_clearerror], [Sw.m_fclose]), -- include/mini_fstream.h
   (Sw.m_fgetpos, [Sw.m_fseek, Sw.m_fileno, Sw.m_ftell, Sw.m_setbuf, Sw.m_fread, Sw.m_ferror, Sw.m_fflush, Sw.m_setvbuf, Sw.m_fsetpos, Sw.m_clearerr, Sw.m_fgetpos, Sw.m_fclose, Sw.m_feof, Sw.m_rewind, Sw.m_fwrite, Sw.m_clearerror], [Sw.m_lseek]), -- include/mini_fstream.h
   (Sw.m_fileno, [Sw.m_fseek, Sw.m_fileno, Sw.m_ftell, Sw.m_setbuf, Sw.m_fread, Sw.m_ferror, Sw.m_fflush, Sw.m_setvbuf, Sw.m_fsetpos, Sw.m_clearerr, Sw.m_fgetpos, Sw.m_fclose, Sw.m_feof, Sw.m_rewind, Sw.m_fwrite, Sw.m_clearerror], []), -- include/mini_fstream.h
   (Sw.m_fread, [Sw.m_fseek, Sw.m_fileno, Sw.m_ftell, Sw.m_setbuf, Sw.m_fread, Sw.m_ferror, Sw.m_fflush, Sw.m_setvbuf, Sw.m_fsetpos, Sw.m_clearerr, Sw.m_fgetpos, Sw.m_fclose, Sw.m_feof, Sw.m_rewind, Sw.m_fwrite, Sw.m_clearerror], [Sw.m_fread]), -- include/mini_fstream.h
   (Sw.m_free, [Sw.m_realloc, Sw.m_malloc, Sw.m_free], []), -- src/memory/malloc.c
   (Sw.m_fseek, [Sw.m_fseek, Sw.m_fileno, Sw.m_ftell, Sw.m_setbuf, Sw.m_fread, Sw.m_ferror, Sw.m_fflush, Sw.m_setvbuf, Sw.m_fsetpos, Sw.m_clearerr, Sw.m_fgetpos, Sw.m_fclose, Sw.m_feof, Sw.m_rewind, Sw.m_fwrite, Sw.m_clearerror], [Sw.m_lseek]), -- include/mini_fstream.h
   (Sw.m_fsetpos, [Sw.m_fseek, Sw.m_fileno, Sw.m_ftell, Sw.m_setbuf, Sw.m_fread, Sw.m_ferror, Sw.m_fflush, Sw.m_setvbuf, Sw.m_fsetpos, Sw.m_clearerr, Sw.m_fgetpos, Sw.m_fclose, Sw.m_feof, Sw.m_rewind, Sw.m_fwrite, Sw.m_clearerror], [Sw.m_lseek]), -- include/mini_fstream.h
   (Sw.m_ftell, [Sw.m_fseek, Sw.m_fileno, Sw.m_ftell, Sw.m_setbuf, Sw.m_fread, Sw.m_ferror, Sw.m_fflush, Sw.m_setvbuf, Sw.m_fsetpos, Sw.m_clearerr, Sw.m_fgetpos, Sw.m_fclose, Sw.m_feof, Sw.m_rewind, Sw.m_fwrite, Sw.m_clearerror], [Sw.m_lseek]), -- include/mini_fstream.h
   (Sw.m_fwrite, [Sw.m_fseek, Sw.m_fileno, Sw.m_ftell, Sw.m_setbuf, Sw.m_fread, Sw.m_ferror, Sw.m_fflush, Sw.m_setvbuf, Sw.m_fsetpos, Sw.m_clearerr, Sw.m_fgetpos, Sw.m_fclose, Sw.m_feof, Sw.m_rewind, Sw.m_fwrite, Sw.m_clearerror], []), -- include/mini_fstream.h
   (Sw.m_grantpt, [Sw.m_ptsname_r, Sw.m_posix_openpt, Sw.m_unlockpt, Sw.m_ptsname, Sw.m_grantpt], []), -- src/termios/pty.c
   (Sw.m_itoHEX, [Sw.m_itohex, Sw.m__itohex, Sw.m_itoHEX], []), -- src/conversions/itohex.c
   (Sw.m_itodec, [Sw.m_itodec, Sw.m_uitodec], []), -- src/conversions/itodec.c
   (Sw.m_itohex, [Sw.m_itohex, Sw.m__itohex, Sw.m_itoHEX], []), -- src/conversions/itohex.c
   (Sw.m_malloc, [Sw.m_realloc, Sw.m_malloc, Sw.m_free], []), -- src/memory/malloc.c
   (Sw.m_match, [Sw.m__match, Sw.m_match], []), -- src/match/match.c
   (Sw.m_match_ext2, [Sw.m_match_ext2, Sw.m__match_ext2], []), -- src/match/match_ext2.c
   (Sw.m_posix_openpt, [Sw.m_ptsname_r, Sw.m_posix_openpt, Sw.m_unlockpt, Sw.m_ptsname, Sw.m_grantpt], []), -- src/termios/pty.c
   (Sw.m_ptsname, [Sw.m_ptsname_r, Sw.m_posix_openpt, Sw.m_unlockpt, Sw.m_ptsname, Sw.m_grantpt], []), -- src/termios/pty.c
   (Sw.m_ptsname_r, [Sw.m_ptsname_r, Sw.m_posix_openpt, Sw.m_unlockpt, Sw.m_ptsname, Sw.m_grantpt], []), -- src/termios/pty.c
   (Sw.m_raise, [Sw.m_raise, Sw.m_sigaction, Sw.m_sigsuspend, Sw.m_sigaddset, Sw.m_sigfillset, Sw.m_sigismember, Sw.m_sigemptyset, Sw.m_sigdelset, Sw.m_sigprocmask], [Sw.m_raise]), -- src/process/sigaction.c
   (Sw.m_realloc, [Sw.m_realloc, Sw.m_malloc, Sw.m_free], []), -- src/memory/malloc.c
   (Sw.m_rewind, [Sw.m_fseek, Sw.m_fileno, Sw.m_ftell, Sw.m_setbuf, Sw.m_fread, Sw.m_ferror, Sw.m_fflush, Sw.m_setvbuf, Sw.m_fsetpos, Sw.m_clearerr, Sw.m_fgetpos, Sw.m_fclose, Sw.m_feof, Sw.m_rewind, Sw.m_fwrite, Sw.m_clearerror], [Sw.m_lseek]), -- include/mini_fstream.h
   (Sw.m_sigaction, [Sw.m_raise, Sw.m_sigaction, Sw.m_sigsuspend, Sw.m_sigaddset, Sw.m_sigfillset, Sw.m_sigismember, Sw.m_sigemptyset, Sw.m_sigdelset, Sw.m_sigprocmask], [Sw.m_sigaction]), -- src/process/sigaction.c
   (Sw.m_sigaddset, [Sw.m_raise, Sw.m_sigaction, Sw.m_sigsuspend, Sw.m_sigaddset, Sw.m_sigfillset, Sw.m_sigismember, Sw.m_sigemptyset, Sw.m_sigdelset, Sw.m_sigprocmask], []), -- src/process/sigaction.c
   (Sw.m_sigdelset, [Sw.m_raise, Sw.m_sigaction, Sw.m_sigsuspend, Sw.m_sigaddset, Sw.m_sigfillset, Sw.m_sigismember, Sw.m_sigemptyset, Sw.m_sigdelset, Sw.m_sigprocmask], []), -- src/process/sigaction.c
   (Sw.m_sigemptyset, [Sw.m_raise, Sw.m_sigaction, Sw.m_sigsuspend, Sw.m_sigaddset, Sw.m_sigfillset, Sw.m_sigismember, Sw.m_sigemptyset, Sw.m_sigdelset, Sw.m_sigprocmask], []), -- src/process/sigaction.c
   (Sw.m_sigfillset, [Sw.m_raise, Sw.m_sigaction, Sw.m_sigsuspend, Sw.m_sigaddset, Sw.m_sigfillset, Sw.m_sigismember, Sw.m_sigemptyset, Sw.m_sigdelset, Sw.m_sigprocmask], []), -- src/process/sigaction.c
   (Sw.m_sigismember, [Sw.m_raise, Sw.m_sigaction, Sw.m_sigsuspend, Sw.m_sigaddset, Sw.m_sigfillset, Sw.m_sigismember, Sw.m_sigemptyset, Sw.m_sigdelset, Sw.m_sigprocmask], []), -- src/process/sigaction.c
   (Sw.m_sigprocmask, [Sw.m_raise, Sw.m_sigaction, Sw.m_sigsuspend, Sw.m_sigaddset, Sw.m_sigfillset, Sw.m_sigismember, Sw.m_sigemptyset, Sw.m_sigdelset, Sw.m_sigprocmask], [Sw.m_sigprocmask]), -- src/process/sigaction.c
   (Sw.m_sigsuspend, [Sw.m_raise, Sw.m_sigaction, Sw.m_sigsuspend, Sw.m_sigaddset, Sw.m_sigfillset, Sw.m_sigismember, Sw.m_sigemptyset, Sw.m_sigdelset, Sw.m_sigprocmask], [Sw.m_sigsuspend]), -- src/process/sigaction.c
   (Sw.m_sleep, [Sw.m_sleep, Sw.m_usleep], []), -- src/process/sleep.c
   (Sw.m_strcasecmp, [Sw.m__strcasecmp, Sw.m_strncasecmp, Sw.m_strcasecmp], []), -- src/string/strcasecmp.c
   (Sw.m_strcmp, [Sw.m_strncmp, Sw.m__strcmp, Sw.m_strcmp], []), -- src/string/strcmp.c
   (Sw.m_strncasecmp, [Sw.m__strcasecmp, Sw.m_strncasecmp, Sw.m_strcasecmp], []), -- src/string/strcasecmp.c
   (Sw.m_strncmp, [Sw.m_strncmp, Sw.m__strcmp, Sw.m_strcmp], []), -- src/string/strcmp.c
   (Sw.m_token_i, [Sw.m_token_s, Sw.m_token_i], []), -- src/userdb/userdb.c
   (Sw.m_token_s, [Sw.m_token_s, Sw.m_token_i], []), -- src/userdb/userdb.c
   (Sw.m_uitodec, [Sw.m_itodec, Sw.m_uitodec], []), -- src/conversions/itodec.c
   (Sw.m_unlockpt, [Sw.m_ptsname_r, Sw.m_posix_openpt, Sw.m_unlockpt, Sw.m_ptsname, Sw.m_grantpt], []), -- src/termios/pty.c
   (Sw.m_usleep, [Sw.m_sleep, Sw.m_usleep], []), -- src/process/sleep.c
   (Sw.m_wait, [Sw.m_waitpid, Sw.m_wait], []), -- src/process/wait.c
   (Sw.m_waitpid, [Sw.m_waitpid, Sw.m_wait], [])] -- src/process/wait.c

/-- Where the definition of a name is compiled: the switches that include its file, and those asked for inside. -/
def definedBy (x : Nat) : List Nat × List Nat :=
  match fileTable.find? fun r => r.1 == x with
  | some r => r.2
  | none => ([x], [])

end Minilib

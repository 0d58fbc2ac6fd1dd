import Verif.Model.Shortnames
/-
C99: names of errors and signals.
-/

set_option autoImplicit false

namespace Minilib

/-- The errors of Linux with their numbers (kernel: include/uapi/asm-generic/errno-base.h, errno.h). -/
def _root_.Spec.errors : List (String × Nat) :=
  [("EPERM", 1), ("ENOENT", 2), ("ESRCH", 3), ("EINTR", 4), ("EIO", 5), ("ENXIO", 6), ("E2BIG", 7), ("ENOEXEC", 8), ("EBADF", 9),
   ("ECHILD", 10), ("EAGAIN", 11), ("ENOMEM", 12), ("EACCES", 13), ("EFAULT", 14), ("ENOTBLK", 15), ("EBUSY", 16), ("EEXIST", 17),
   ("EXDEV", 18), ("ENODEV", 19), ("ENOTDIR", 20), ("EISDIR", 21), ("EINVAL", 22), ("ENFILE", 23), ("EMFILE", 24), ("ENOTTY", 25),
   ("ETXTBSY", 26), ("EFBIG", 27), ("ENOSPC", 28), ("ESPIPE", 29), ("EROFS", 30), ("EMLINK", 31), ("EPIPE", 32), ("EDOM", 33),
   ("ERANGE", 34), ("EDEADLK", 35), ("ENAMETOOLONG", 36), ("ENOLCK", 37), ("ENOSYS", 38), ("ENOTEMPTY", 39), ("ELOOP", 40), ("ENOMSG", 42),
   ("EIDRM", 43), ("ECHRNG", 44), ("EL2NSYNC", 45), ("EL3HLT", 46), ("EL3RST", 47), ("ELNRNG", 48), ("EUNATCH", 49), ("ENOCSI", 50),
   ("EL2HLT", 51), ("EBADE", 52), ("EBADR", 53), ("EXFULL", 54), ("ENOANO", 55), ("EBADRQC", 56), ("EBADSLT", 57), ("EBFONT", 59),
   ("ENOSTR", 60), ("ENODATA", 61), ("ETIME", 62), ("ENOSR", 63), ("ENONET", 64), ("ENOPKG", 65), ("EREMOTE", 66), ("ENOLINK", 67),
   ("EADV", 68), ("ESRMNT", 69), ("ECOMM", 70), ("EPROTO", 71), ("EMULTIHOP", 72), ("EDOTDOT", 73), ("EBADMSG", 74), ("EOVERFLOW", 75),
   ("ENOTUNIQ", 76), ("EBADFD", 77), ("EREMCHG", 78), ("ELIBACC", 79), ("ELIBBAD", 80), ("ELIBSCN", 81), ("ELIBMAX", 82), ("ELIBEXEC", 83),
   ("EILSEQ", 84), ("ERESTART", 85), ("ESTRPIPE", 86), ("EUSERS", 87), ("ENOTSOCK", 88), ("EDESTADDRREQ", 89), ("EMSGSIZE", 90),
   ("EPROTOTYPE", 91), ("ENOPROTOOPT", 92), ("EPROTONOSUPPORT", 93), ("ESOCKTNOSUPPORT", 94), ("EOPNOTSUPP", 95), ("EPFNOSUPPORT", 96),
   ("EAFNOSUPPORT", 97), ("EADDRINUSE", 98), ("EADDRNOTAVAIL", 99), ("ENETDOWN", 100), ("ENETUNREACH", 101), ("ENETRESET", 102),
   ("ECONNABORTED", 103), ("ECONNRESET", 104), ("ENOBUFS", 105), ("EISCONN", 106), ("ENOTCONN", 107), ("ESHUTDOWN", 108),
   ("ETOOMANYREFS", 109), ("ETIMEDOUT", 110), ("ECONNREFUSED", 111), ("EHOSTDOWN", 112), ("EHOSTUNREACH", 113), ("EALREADY", 114),
   ("EINPROGRESS", 115), ("ESTALE", 116), ("EUCLEAN", 117), ("ENOTNAM", 118), ("ENAVAIL", 119), ("EISNAM", 120), ("EREMOTEIO", 121),
   ("EDQUOT", 122), ("ENOMEDIUM", 123), ("EMEDIUMTYPE", 124), ("ECANCELED", 125), ("ENOKEY", 126), ("EKEYEXPIRED", 127),
   ("EKEYREVOKED", 128), ("EKEYREJECTED", 129), ("EOWNERDEAD", 130), ("ENOTRECOVERABLE", 131), ("ERFKILL", 132), ("EHWPOISON", 133)]

/-- Second names: the same numbers. -/
def _root_.Spec.errorSynonyms : List (String × Nat) := [("EWOULDBLOCK", 11), ("EDEADLOCK", 35), ("ENOTSUP", 95)]

/-- The signals of Linux on x86 (kernel: arch/x86/include/uapi/asm/signal.h). -/
def _root_.Spec.signals : List (String × Nat) :=
  [("HUP", 1), ("INT", 2), ("QUIT", 3), ("ILL", 4), ("TRAP", 5), ("ABRT", 6), ("BUS", 7), ("FPE", 8), ("KILL", 9), ("USR1", 10),
   ("SEGV", 11), ("USR2", 12), ("PIPE", 13), ("ALRM", 14), ("TERM", 15), ("STKFLT", 16), ("CHLD", 17), ("CONT", 18), ("STOP", 19),
   ("TSTP", 20), ("TTIN", 21), ("TTOU", 22), ("URG", 23), ("XCPU", 24), ("XFSZ", 25), ("VTALRM", 26), ("PROF", 27), ("WINCH", 28),
   ("IO", 29), ("PWR", 30), ("SYS", 31)]

theorem short_len : shortErrstrTable.length = 134 := by decide +kernel

theorem shortErrstr_in {n : Nat} (h : n ≤ 133) : ∃ s, shortErrstrTable[n]? = some s ∧ shortErrstr n = .ok s := by
  have hl : n < shortErrstrTable.length := by rw [short_len]; omega
  refine ⟨_, List.getElem?_eq_getElem hl, ?_⟩
  unfold shortErrstr SHORT_ERRNO_MAX
  rw [if_neg (by omega), Int.toNat_natCast, List.getElem?_eq_getElem hl]

/-- C99: `short_errstr` is defined for every number; it is "UNKNOWN" exactly for those that are no number of an error. -/
theorem C99_short_errstr_total (num : Int) : ∃ s, shortErrstr num = .ok s ∧ (s = "UNKNOWN" ↔ num < 0 ∨ 133 < num) := by
  by_cases h : num > 133 ∨ num < 0
  · exact ⟨"UNKNOWN", by unfold shortErrstr SHORT_ERRNO_MAX; rw [if_pos h], by simp; omega⟩
  · obtain ⟨n, rfl⟩ : ∃ n : Nat, num = n := ⟨num.toNat, by omega⟩
    obtain ⟨s, e1, e2⟩ := shortErrstr_in (n := n) (by omega)
    refine ⟨s, e2, ⟨fun hs => ?_, fun hx => by omega⟩⟩
    have : ∀ x ∈ shortErrstrTable, x ≠ "UNKNOWN" := by decide +kernel
    exact absurd hs (this s (List.mem_of_getElem? e1))

/-- C99, full statement: the name of every error. -/
def C99_short_errstr_full : Prop := ∀ p ∈ Spec.errors, shortErrstr (p.2 : Nat) = .ok p.1

/-- C99: of every error but EHWPOISON. -/
theorem C99_short_errstr_partial : ∀ p ∈ Spec.errors, p.1 ≠ "EHWPOISON" → shortErrstr (p.2 : Nat) = .ok p.1 := by
  have h : ∀ p ∈ Spec.errors, p.1 ≠ "EHWPOISON" → p.2 ≤ 133 ∧ shortErrstrTable[p.2]? = some p.1 := by decide +kernel
  intro p hp hn
  obtain ⟨h1, h2⟩ := h p hp hn
  obtain ⟨s, e1, e2⟩ := shortErrstr_in h1
  rw [h2] at e1
  rw [e2]
  exact congrArg _ (Option.some.inj e1).symm

theorem C99_short_errstr_refuted : ¬ C99_short_errstr_full := by
  intro h
  have := h ("EHWPOISON", 133) (by decide +kernel)
  obtain ⟨s, e1, e2⟩ := shortErrstr_in (n := 133) (by omega)
  rw [e2] at this
  have hs : shortErrstrTable[133]? = some "MEMPAGEFAULT" := rfl
  rw [hs] at e1
  cases e1
  injection this with this
  exact absurd this (by decide)

/-- C99: different numbers have different names. -/
theorem C99_short_errstr_injective {m n : Nat} (hm : m ≤ 133) (hn : n ≤ 133) (h : shortErrstr m = shortErrstr n) : m = n := by
  obtain ⟨s, a1, a2⟩ := shortErrstr_in hm
  obtain ⟨t, b1, b2⟩ := shortErrstr_in hn
  rw [a2, b2] at h
  injection h with h
  subst h
  have nd : shortErrstrTable.Nodup := by decide +kernel
  obtain ⟨x1, y1⟩ := List.getElem?_eq_some_iff.1 a1
  obtain ⟨x2, y2⟩ := List.getElem?_eq_some_iff.1 b1
  have ne := List.pairwise_iff_getElem.1 nd
  rcases Nat.lt_trichotomy m n with h | h | h
  · exact absurd (y1.trans y2.symm) (ne m n x1 x2 h)
  · exact h
  · exact absurd (y2.trans y1.symm) (ne n m x2 x1 h)

/-- C99: the numbers of the header are those of the kernel, and no error is missing but EHWPOISON. -/
theorem C99_errno_numbers : (∀ p ∈ errnoHeader, p ∈ Spec.errors ++ Spec.errorSynonyms) ∧
    ∀ p ∈ Spec.errors ++ Spec.errorSynonyms, p.1 = "EHWPOISON" ∨ p ∈ errnoHeader := by
  constructor <;> decide +kernel

/-- C99: the names of the signals. -/
theorem C99_signame : (∀ p ∈ Spec.signals, sysSigname[p.2]? = some p.1) ∧ Spec.signals.length = 31 := by
  constructor <;> decide +kernel

example : shortErrstr 13 = .ok "EACCES" := C99_short_errstr_partial ("EACCES", 13) (by decide +kernel) (by decide)

example : shortErrstr 13 ≠ shortErrstr 14 := fun h => absurd (C99_short_errstr_injective (by decide) (by decide) h) (by decide)

end Minilib

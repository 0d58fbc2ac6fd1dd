{
 "claims": [
  {
   "property": "C01",
   "status": "proved",
   "theorems": [
    "Minilib.C01_strlen",
    "Minilib.C01_strlen_null",
    "Minilib.C01_strnlen",
    "Minilib.C01_strnlen_min"
   ],
   "note": "strings shorter than 2^31 bytes (the code counts with int)"
  },
  {
   "property": "C02",
   "status": "proved",
   "theorems": [
    "Minilib.C02_strcpy",
    "Minilib.C02_stpcpy",
    "Minilib.C02_copy_meaning"
   ],
   "note": ""
  },
  {
   "property": "C03",
   "status": "proved",
   "theorems": [
    "Minilib.C03_strcat",
    "Minilib.C03_strcat_string",
    "Minilib.C03_strncat",
    "Minilib.C03_strncat_zero"
   ],
   "note": ""
  },
  {
   "property": "C04",
   "status": "partial",
   "theorems": [
    "Minilib.C04_strncpy_refuted",
    "Minilib.C04_stpncpy_refuted",
    "Minilib.C04_strncpy_partial",
    "Minilib.C04_stpncpy_partial",
    "Minilib.C04_strncpy_string_partial"
   ],
   "note": "refuted as stated: strncpy/stpncpy read src[n] when the source fills the window; partial theorems assume that byte is readable, or a terminated source"
  },
  {
   "property": "C05",
   "status": "partial",
   "theorems": [
    "Minilib.C05_strlcpy",
    "Minilib.C05_stplcpy_refuted",
    "Minilib.C05_stplcpy_partial",
    "Minilib.C05_stplcpy_long_partial"
   ],
   "note": "strlcpy proved; stplcpy writes its NUL at dest[size] when the source is at least size bytes long (refuted); exact behaviour of both cases proved"
  },
  {
   "property": "C06",
   "status": "proved",
   "theorems": [
    "Minilib.C06_strcmp",
    "Minilib.C06_strcmp_reads",
    "Minilib.C06_strncmp",
    "Minilib.C06_strncmp_zero",
    "Minilib.C06_strcmp_order"
   ],
   "note": "strings shorter than 2^31-1 bytes"
  },
  {
   "property": "C07",
   "status": "partial",
   "theorems": [
    "Minilib.C07_strcasecmp_refuted",
    "Minilib.C07_strcasecmp_refuted_equal",
    "Minilib.C07_strncasecmp_refuted",
    "Minilib.C07_strcasecmp_partial",
    "Minilib.C07_strcasecmp_sign_partial",
    "Minilib.C07_strncasecmp_partial",
    "Minilib.C07_difference_partial",
    "Minilib.C07_strncasecmp_none_refuted"
   ],
   "note": "refuted (length difference always gives 1, non-letters collide, strncasecmp returns 1 on equal prefixes and -1 for the limit 0); partial, on bytes 0x20-0x3f, letters, 0x60-0x7f: zero iff equal modulo case (strncasecmp: and ended within the limit), sign for equal lengths, and sign of the first difference for strings of any length"
  },
  {
   "property": "C08",
   "status": "partial",
   "theorems": [
    "Minilib.C08_strchr_refuted",
    "Minilib.C08_strrchr_refuted",
    "Minilib.C08_strchrnul_partial",
    "Minilib.C08_strchr_partial",
    "Minilib.C08_strrchr_partial"
   ],
   "note": "refuted for c outside -128..127 and for strrchr(s,0); proved for every char value"
  },
  {
   "property": "C09",
   "status": "partial",
   "theorems": [
    "Minilib.C09_strcspn",
    "Minilib.C09_strcspn_variants",
    "Minilib.C09_strspn_refuted",
    "Minilib.C09_strspn_overread",
    "Minilib.C09_strspn_partial",
    "Minilib.C09_strspn_ok_partial"
   ],
   "note": "strcspn proved for both build variants; strspn refuted, exact result characterised"
  },
  {
   "property": "C10",
   "status": "partial",
   "theorems": [
    "Minilib.C10_strpbrk_computes_partial",
    "Minilib.C10_strpbrk_refuted",
    "Minilib.C10_strpbrk_partial"
   ],
   "note": "refuted: strpbrk returns s for every non-empty s; exact result proved"
  },
  {
   "property": "C11",
   "status": "partial",
   "theorems": [
    "Minilib.C11_strstr_refuted",
    "Minilib.C11_strstr_partial"
   ],
   "note": "refuted for empty big with non-empty little (overread); proved otherwise"
  },
  {
   "property": "C12",
   "status": "proved",
   "theorems": [
    "Minilib.C12_strtok"
   ],
   "note": ""
  },
  {
   "property": "C13",
   "status": "partial",
   "theorems": [
    "Minilib.C13_strdup_partial",
    "Minilib.C13_strndup_partial",
    "Minilib.C13_strdup_refuted",
    "Minilib.C13_strdup_overrun_refuted",
    "Minilib.C13_strndup_refuted"
   ],
   "note": "refuted: strdup allocates no room for the NUL (it overwrites the neighbour's header when strlen is a multiple of 4), strndup copies one byte too many when it truncates. Partial: strlen not a multiple of 4 / string not longer than n"
  },
  {
   "property": "C14",
   "status": "proved",
   "theorems": [
    "Minilib.C14_memcpy",
    "Minilib.C14_memcpy_optimized",
    "Minilib.C14_memset",
    "Minilib.C14_nonpositive"
   ],
   "note": "both build variants of memcpy; sizes up to INT_MAX"
  },
  {
   "property": "C15",
   "status": "partial",
   "theorems": [
    "Minilib.C15_memmove_refuted",
    "Minilib.C15_memmove_partial"
   ],
   "note": "refuted: moving up into an overlapping region smears; proved for dest <= src and for disjoint regions"
  },
  {
   "property": "C16",
   "status": "partial",
   "theorems": [
    "Minilib.C16_memchr_refuted",
    "Minilib.C16_memchr_found_partial",
    "Minilib.C16_memchr_absent_partial",
    "Minilib.C16_memcmp_refuted",
    "Minilib.C16_memcmp_refuted_sign",
    "Minilib.C16_memcmp_partial"
   ],
   "note": "refuted: memchr(s,-1,n) does not convert c to unsigned char; memcmp(p,q,0) is -1 and bytes compare as signed char. Proved: memchr for c in 0..255, exact memcmp result for n >= 1"
  },
  {
   "property": "C17",
   "status": "proved",
   "theorems": [
    "Minilib.C17_history",
    "Minilib.C17_fresh"
   ],
   "note": "request sizes 1..INT_MAX-7"
  },
  {
   "property": "C18",
   "status": "proved",
   "theorems": [
    "Minilib.C18_history",
    "Minilib.C18_malloc",
    "Minilib.C18_free",
    "Minilib.C18_free_null"
   ],
   "note": "request sizes 1..INT_MAX-7"
  },
  {
   "property": "C19",
   "status": "proved",
   "theorems": [
    "Minilib.C19_all_freed",
    "Minilib.C19_any_order"
   ],
   "note": "request sizes 1..INT_MAX-7"
  },
  {
   "property": "C20",
   "status": "partial",
   "theorems": [
    "Minilib.C20_malloc_refuted",
    "Minilib.C20_malloc_partial"
   ],
   "note": "refuted for the seven largest int sizes (signed overflow); proved for all other sizes"
  },
  {
   "property": "C21",
   "status": "partial",
   "theorems": [
    "Minilib.C21_negative_refuted",
    "Minilib.C21_zero_refuted",
    "Minilib.C21_zero_partial"
   ],
   "note": "refuted: malloc(negative) succeeds and returns a pointer into a live block; a block from malloc(0) freed out of order is lost. Partial: malloc(0) freed at once is harmless"
  },
  {
   "property": "C22",
   "status": "partial",
   "theorems": [
    "Minilib.C22_calloc_partial",
    "Minilib.C22_calloc_one_partial",
    "Minilib.C22_calloc_refuted"
   ],
   "note": "refuted: only the first size bytes are cleared. Partial: exact behaviour; all zero for nmemb = 1"
  },
  {
   "property": "C23",
   "status": "partial",
   "theorems": [
    "Minilib.C23_realloc_partial",
    "Minilib.C23_realloc_small_partial",
    "Minilib.C23_realloc_shrink_partial",
    "Minilib.C23_realloc_refuted",
    "Minilib.C23_realloc_oom_refuted",
    "Minilib.C23_realloc_null_refuted",
    "Minilib.C23_realloc_overflow_refuted",
    "Minilib.C23_realloc_from_null",
    "Minilib.C23_realloc_to_zero"
   ],
   "note": "refuted in four ways: copies only about half of the old block; frees it when memory runs out; copies through NULL when the room counted is that of the old block; copies more than the new block holds when a block shrinks to between a quarter and a half, over the neighbour. Partial: old blocks of at most 8 bytes, moves whose copied part covers and fits, and shrinking below a quarter"
  },
  {
   "property": "C24",
   "status": "partial",
   "theorems": [
    "Minilib.C24_map_partial",
    "Minilib.C24_unmap",
    "Minilib.C24_map_refuted"
   ],
   "note": "refuted when the kernel refuses the mapping (error pointer not detected, 4096 added); proved whenever the mapping is granted; unmap proved"
  },
  {
   "property": "C25",
   "status": "partial",
   "theorems": [
    "Minilib.C25_uitodec_partial",
    "Minilib.C25_group_partial",
    "Minilib.C25_uitodec_refuted",
    "Minilib.C25_width_ten_partial",
    "Minilib.C25_width_ten_refuted",
    "Minilib.C25_wide_refuted",
    "Minilib.C25_itodec_partial",
    "Minilib.C25_itodec_width_partial",
    "Minilib.C25_itodec_min_refuted"
   ],
   "note": "refuted for 0 with a width (only padding is printed), widths above 10 and INT_MIN; proved for all other values with widths up to 9 and, without width, for all values but INT_MIN, with digit grouping"
  },
  {
   "property": "C26",
   "status": "partial",
   "theorems": [
    "Minilib.C26_ultodec_partial",
    "Minilib.C26_ultodec_refuted",
    "Minilib.C26_group_partial",
    "Minilib.C26_group_refuted",
    "Minilib.C26_ltodec_partial",
    "Minilib.C26_ltodec_min_refuted"
   ],
   "note": "refuted for 0 with precision 0 (empty text), LONG_MIN (overflow) and the digit separator in front of numbers of 3, 6, ... digits (leading separator); proved for all other 64 bit values and precisions up to 20, and the groups of all other numbers"
  },
  {
   "property": "C27",
   "status": "partial",
   "theorems": [
    "Minilib.C27_itobin_groups_partial",
    "Minilib.C27_itohex_partial",
    "Minilib.C27_itoHEX_partial",
    "Minilib.C27_itohex_refuted",
    "Minilib.C27_itobin_nogroup_partial",
    "Minilib.C27_itobin_partial",
    "Minilib.C27_itobin_refuted",
    "Minilib.C27_itooct_partial",
    "Minilib.C27_itooct_refuted"
   ],
   "note": "hex proved for paddings up to 8 and refuted above; itobin appends a blank (refuted), digits proved for every group size; itooct emits one indeterminate byte first (refuted), the following digits proved"
  },
  {
   "property": "C28",
   "status": "partial",
   "theorems": [
    "Minilib.C28_atoi_partial",
    "Minilib.C28_atoi_itodec_partial",
    "Minilib.C28_atoi_refuted",
    "Minilib.C28_atoi_min_refuted",
    "Minilib.C28_atol_partial",
    "Minilib.C28_atol_ltodec_partial",
    "Minilib.C28_atol_refuted"
   ],
   "note": "atoi refuted for trailing text and INT_MIN, atol refuted for LONG_MIN; proved for all other values, incl. the round trips with itodec/ltodec"
  },
  {
   "property": "C29",
   "status": "partial",
   "theorems": [
    "Minilib.C29_strtol_partial",
    "Minilib.C29_strtoimax_partial",
    "Minilib.C29_base0_hex_partial",
    "Minilib.C29_base0_oct_partial",
    "Minilib.C29_base0_dec_partial",
    "Minilib.C29_strtol_refuted",
    "Minilib.C29_overflow_refuted"
   ],
   "note": "refuted: the digit equal to the base is accepted, overflow is undefined, '+' not accepted; proved for all bases, white space, minus sign, base deduction when the value fits"
  },
  {
   "property": "C30",
   "status": "proved",
   "theorems": [
    "Minilib.C30_htonl",
    "Minilib.C30_htonl_network_order",
    "Minilib.C30_ntohl_htonl",
    "Minilib.C30_htons",
    "Minilib.C30_ntohs_htons"
   ],
   "note": ""
  },
  {
   "property": "C31",
   "status": "proved",
   "theorems": [
    "Minilib.C31_inet_ntoa",
    "Minilib.C31_inet_aton",
    "Minilib.C31_round_trip",
    "Minilib.C31_inet_aton_total"
   ],
   "note": ""
  },
  {
   "property": "C32",
   "status": "proved",
   "theorems": [
    "Minilib.C32_qsort",
    "Minilib.C32_qsort_any_comparison"
   ],
   "note": ""
  },
  {
   "property": "C33",
   "status": "proved",
   "theorems": [
    "Minilib.C33_bsearch",
    "Minilib.C33_bsearch_sorted",
    "Minilib.C33_search_after_sort"
   ],
   "note": ""
  },
  {
   "property": "C34",
   "status": "proved",
   "theorems": [
    "Minilib.C34_djb2_hash",
    "Minilib.C34_sdbm_hash",
    "Minilib.C34_hash_position_independent",
    "Minilib.C34_djb_cksum",
    "Minilib.C34_bsd_chaining"
   ],
   "note": ""
  },
  {
   "property": "C35",
   "status": "partial",
   "theorems": [
    "Minilib.C35_ipoweriui",
    "Minilib.C35_ipoweri_partial",
    "Minilib.C35_ipoweri_refuted"
   ],
   "note": "ipoweriui is exact for every base and exponent: x^n when it fits an int, undefined behaviour otherwise. ipoweri converts a negative exponent to unsigned: refuted with a witness; _partial covers exponents >= 0."
  },
  {
   "property": "C36",
   "status": "partial",
   "theorems": [
    "Minilib.C36_rand_stuck",
    "Minilib.C36_rand_refuted",
    "Minilib.C36_rand_zero_state_refuted",
    "Minilib.C36_stuck_states_partial",
    "Minilib.C36_collisions_partial",
    "Minilib.C36_same_sequence",
    "Minilib.C36_seeds_partial",
    "Minilib.C36_seed_zero",
    "Minilib.C36_zero_recovers"
   ],
   "note": "Refuted: three states are fixed points of the generator (srand(0x4e260138) makes rand return one value forever), and the update is not injective. C36_stuck_states_partial shows these are the only stuck states; zero is left after one call."
  },
  {
   "property": "C37",
   "status": "partial",
   "theorems": [
    "Minilib.C37_vsnprintf_partial",
    "Minilib.C37_strpad_refuted",
    "Minilib.C37_group_refuted",
    "Minilib.C37_min_refuted",
    "Minilib.C37_bin_refuted",
    "Minilib.C37_lone_percent_refuted",
    "Minilib.C37_double_partial",
    "Minilib.C37_double_wide_refuted",
    "Minilib.C37_double_large_refuted"
   ],
   "note": "Proved for every list of format items (literals, %% d u ld lu x X o b s c f with any modifiers, widths and group sizes in parentheses), every size >= 1 and all arguments except those named in SafeItem: nothing outside buf[0..size) is written; a single %f also with up to 13 decimals (C37_double_partial). Refuted: padding of %Ns is not checked, %'d of a negative ten digit number takes 15 bytes where 14 were checked, %d of INT_MIN overflows, %b of a number with the top bit set takes 34 bytes where 33 were checked, %99f writes its NUL far behind the text without a check, %f of a number beyond the ints is undefined, a format ending in a lone % is read beyond its end."
  },
  {
   "property": "C38",
   "status": "partial",
   "theorems": [
    "Minilib.C38_vsnprintf_partial",
    "Minilib.C38_vsnprintf_any_size_partial",
    "Minilib.C38_zero_refuted",
    "Minilib.C38_negative_refuted",
    "Minilib.C38_wide_refuted",
    "Minilib.C38_group_refuted",
    "Minilib.C38_hex_refuted",
    "Minilib.C38_bin_refuted",
    "Minilib.C38_bingroup_refuted",
    "Minilib.C38_char_refuted",
    "Minilib.C38_double_partial",
    "Minilib.C38_double_cut",
    "Minilib.C38_double_nul_refuted",
    "Minilib.C38_double_decimals_refuted",
    "Minilib.C38_double_width_refuted"
   ],
   "note": "Proved for every list of good items (see Conv.Good): exact text, NUL and length; the exact bytes of a single %f with up to nine decimals (C38_double_partial), whose string is the whole part only (C38_double_cut). Good are also widths that the number fills by itself, the width 10 with blanks, and %'ld of numbers whose number of digits is no multiple of three. Refuted: %u of 0 prints a blank, %5d of -42 takes six characters, %12u is not padded at all, %'lu of 123 begins with the separator, %5x pads with zeros, %5c ignores the width, %b prints a blank at the end and %(8)b puts its groups in the wrong places, %f leaves a NUL in front of the dot, has nine decimals by default and takes the width for the number of decimals. Missing: those conversions, %o (prints an indeterminate character first, see C27)."
  },
  {
   "property": "C39",
   "status": "partial",
   "theorems": [
    "Minilib.C39_snprintfs_partial",
    "Minilib.C39_snprintfs_cut_partial",
    "Minilib.C39_refuted",
    "Minilib.C39_format_refuted"
   ],
   "note": "Exact for every text shorter than the buffer, and for longer texts with one byte behind the buffer; refuted: a text that fills the buffer puts the NUL at buf[size]; a format ending in '%' is read past its NUL."
  },
  {
   "property": "C40",
   "status": "partial",
   "theorems": [
    "Minilib.C40_dprintf_partial",
    "Minilib.C40_fprintf_partial",
    "Minilib.C40_va_list_refuted",
    "Minilib.C40_text_partial",
    "Minilib.C40_refuted"
   ],
   "note": "Every allocation history, every safe format (SafeItem, as in C37), fitting or not; padded strings when 27 bytes (31 with %b) are to spare. Refuted for a padded string that does not fit, and for vfprintf, a macro for fprintf, when it is given a va_list as the standard says."
  },
  {
   "property": "C41",
   "status": "partial",
   "theorems": [
    "Minilib.C41_errors_partial",
    "Minilib.C41_loop_errors_partial",
    "Minilib.C41_report_refuted",
    "Minilib.C41_fgetsp_errors",
    "Minilib.C41_fgets_partial",
    "Minilib.C41_fgets_long_partial",
    "Minilib.C41_refuted",
    "Minilib.C41_loop_partial",
    "Minilib.C41_fgetsp"
   ],
   "note": "Exact characterisation of fgets, fgetsn and fgetsp for every stream, every chunking of reads and every pattern of read errors. fgetsp is proved to stay within its buffer. fgets and fgetsn are refuted: a line of size bytes or more puts the NUL at buf[size], and an error within a line is not reported; the partial theorems are for shorter lines, or for a buffer with one byte more; the loop theorems say that consecutive calls deliver the whole stream, after errors a prefix of it (data without NUL bytes, which end a line and are lost)."
  },
  {
   "property": "C42",
   "status": "partial",
   "theorems": [
    "Minilib.C42_getchar_partial",
    "Minilib.C42_getchar_refuted",
    "Minilib.C42_ops_partial",
    "Minilib.C42_unget_high_partial",
    "Minilib.C42_eof_refuted",
    "Minilib.C42_unget_refuted",
    "Minilib.C42_unget_nul_refuted"
   ],
   "note": "Refuted in four ways: end of file is reported as 0, a byte from 128 on comes back negative after ungetc, ungetc of a NUL is lost, and getchar reads through NULL when ungetc is compiled in. Proved for every interleaving of fgetc and ungetc of the bytes 1 to 127 with 0 as the end, and for getchar without ungetc."
  },
  {
   "property": "C43",
   "status": "partial",
   "theorems": [
    "Minilib.C43_reuse_refuted",
    "Minilib.C43_overrun_refuted",
    "Minilib.C43_close_refuted",
    "Minilib.C43_unget_refuted",
    "Minilib.C43_orderly_partial"
   ],
   "note": "Refuted: a slot still open is handed out after certain orders of closing; with 16 slots in use fopen and fclose read behind the table; ungetc of a byte from 128 on makes a slot look free. Proved for the histories in which a stream is closed while it is the highest one open or its successor is open, the last slot was not handed out when closing, the standard streams stay open and at most 16 streams are opened."
  },
  {
   "property": "C44",
   "status": "partial",
   "theorems": [
    "Minilib.C44_fread_partial",
    "Minilib.C44_fread_regular_partial",
    "Minilib.C44_fread_refuted",
    "Minilib.C44_fread_push_refuted",
    "Minilib.C44_fwrite_partial",
    "Minilib.C44_fwrite_all_partial",
    "Minilib.C44_fwrite_refuted"
   ],
   "note": "Refuted: the transfer ends at the first short answer of the kernel, and fread ignores a character pushed back. Proved: the exact outcome for every kernel, and complete transfers for kernels that do not answer short."
  },
  {
   "property": "C45",
   "status": "partial",
   "theorems": [
    "Minilib.C45_getenv_partial",
    "Minilib.C45_refuted",
    "Minilib.C45_getenv_value"
   ],
   "note": "Refuted: the comparison runs on behind the NUL when an entry without '=' equals the name. Proved: the first variable with exactly this name, for environments whose entries have a '='."
  },
  {
   "property": "C46",
   "status": "partial",
   "theorems": [
    "Minilib.C46_putenv_partial",
    "Minilib.C46_putenv_error",
    "Minilib.C46_putenv_refuted",
    "Minilib.C46_putenv_array_refuted",
    "Minilib.C46_unsetenv_partial",
    "Minilib.C46_unsetenv_refuted",
    "Minilib.C46_setenv_partial",
    "Minilib.C46_setenv_refuted",
    "Minilib.C46_nomem_refuted",
    "Minilib.C46_history_partial"
   ],
   "note": "Refuted: an entry is chosen by a common beginning (putenv, setenv: of a longer name, unsetenv: of a shorter one), the new entry may go past the array the kernel supplied, setenv asks malloc for one byte too few, and a failed malloc in setenv drops the variables behind. Proved without these situations: exact effect of each call, and of every history of calls on getenv."
  },
  {
   "property": "C47",
   "status": "partial",
   "theorems": [
    "Minilib.C47_partial",
    "Minilib.C47_order_partial",
    "Minilib.C47_appdata",
    "Minilib.C47_refuted"
   ],
   "note": "Refuted: with ATEXIT_MAX handlers the startup code looks one cell behind the table and, when the program's appdata pointer there is not NULL, calls it. Proved: answers of every registration, and the calls in reverse order for tables that are not full or when appdata is NULL."
  },
  {
   "property": "C48",
   "status": "partial",
   "theorems": [
    "Minilib.C48_sigset_partial",
    "Minilib.C48_sigemptyset",
    "Minilib.C48_sigfillset_partial",
    "Minilib.C48_sigset_refuted",
    "Minilib.C48_out_of_range",
    "Minilib.C48_zero_ub"
   ],
   "note": "_NSIG is 32 in this library, so only signals 1..30 work (proved exactly); 31..64 are refused and 0 is an undefined shift. Refuted for 1..64."
  },
  {
   "property": "C49",
   "status": "proved",
   "theorems": [
    "Minilib.C49_FD_SET",
    "Minilib.C49_FD_CLR",
    "Minilib.C49_FD_ISSET",
    "Minilib.C49_FD_ZERO",
    "Minilib.C49_history"
   ],
   "note": ""
  },
  {
   "property": "C50",
   "status": "partial",
   "theorems": [
    "Minilib.C50_wait_partial",
    "Minilib.C50_wait_others",
    "Minilib.C50_wait_refuted"
   ],
   "note": "All macros exact for killed/stopped children and exit codes < 128; WIFSTOPPED overflows int (undefined) on exit codes >= 128 and on the continued status, which refutes the full statement. The other macros are exact for every event (C50_wait_others)."
  },
  {
   "property": "C51",
   "status": "partial",
   "theorems": [
    "Minilib.C51_ALIGN",
    "Minilib.C51_ALIGN_P_refuted",
    "Minilib.C51_ALIGN_P_partial"
   ],
   "note": "ALIGN_n proved for every power of two. ALIGN_P shifts by 8 instead of 3: refuted; _partial gives the values for which it is right."
  },
  {
   "property": "C52",
   "status": "partial",
   "theorems": [
    "Minilib.C52_safe",
    "Minilib.C52_sound_partial",
    "Minilib.C52_partial",
    "Minilib.C52_extract_partial",
    "Minilib.C52_plus_refuted",
    "Minilib.C52_refuted",
    "Minilib.C52_negated_refuted",
    "Minilib.C52_negated_example",
    "Minilib.C52_bracket_refuted",
    "Minilib.C52_dollar_refuted",
    "Minilib.C52_gap_refuted"
   ],
   "note": "Safety and termination hold for every text and pattern (C52_safe). Soundness is proved for patterns without negated classes and texts without the characters for which classes and '$' are wrong; exactness for patterns where something behind a '*', '+', '%', '#' or '$' takes a character and no '+' or '%' is at the end. Refuted: '+' at the end of the text, negated classes, ']' in a class, '$' as a literal, '%#*' at the end of the text."
  },
  {
   "property": "C53",
   "status": "partial",
   "theorems": [
    "Minilib.C53_dirname",
    "Minilib.C53_null",
    "Minilib.C53_basename_partial",
    "Minilib.C53_basename_refuted",
    "Minilib.C53_basename_slashes_refuted"
   ],
   "note": "dirname: proved for every path. basename refuted: a path of one component followed by a slash gives '/', and of three and more slashes at the end some stay. Proved for all other paths."
  },
  {
   "property": "C54",
   "status": "partial",
   "theorems": [
    "Minilib.C54_readdir",
    "Minilib.C54_seek_partial",
    "Minilib.C54_error",
    "Minilib.C54_errno_refuted",
    "Minilib.C54_tell_refuted",
    "Minilib.C54_seek_refuted"
   ],
   "note": "readdir proved for every split of the directory by the kernel, with or without failures. Refuted: telldir on a new stream reads an uninitialised field, seekdir keeps only 32 bits of the position for telldir, errno is always EPERM after a failure. Proved for all sequences of calls with positions below 2^31 after a first rewinddir."
  },
  {
   "property": "C55",
   "status": "partial",
   "theorems": [
    "Minilib.C55_group_partial",
    "Minilib.C55_group_plain",
    "Minilib.C55_usergroups_partial",
    "Minilib.C55_grouplist_partial",
    "Minilib.C55_exact_refuted",
    "Minilib.C55_grouplist_refuted",
    "Minilib.C55_nomembers_refuted",
    "Minilib.C55_page_refuted",
    "Minilib.C55_emptyline_refuted",
    "Minilib.C55_newline_refuted",
    "Minilib.C55_passwd_partial",
    "Minilib.C55_plain",
    "Minilib.C55_nam_refuted",
    "Minilib.C55_number_refuted",
    "Minilib.C55_emptyuser_refuted",
    "Minilib.C55_stale_refuted"
   ],
   "note": "Proved over every history of calls for files of well-formed lines (numbers up to INT_MAX, newline at the end, at most 63 members), for groups with enough zero bytes behind the file, for names under the condition pwSafe. Refuted: the second lookup of a missing user name dereferences NULL; after endpwent an old entry is read in unmapped memory; numbers above INT_MAX overflow; a group without members gets one empty member; a group file whose size is a multiple of the page size is read behind the mapping; the last member of a file without final newline is not terminated; getusergroups fails when the list fits exactly, and getgrouplist then writes before the list. At an empty line both getpwent and getgrent answer that there are no more entries (C55_emptyuser_refuted, C55_emptyline_refuted)."
  },
  {
   "property": "C56",
   "status": "partial",
   "theorems": [
    "Minilib.C56_getopt_partial",
    "Minilib.C56_getopt_stuck",
    "Minilib.C56_ends_refuted",
    "Minilib.C56_colon_refuted"
   ],
   "note": "Proved for contrib/getopt: exact options, arguments and operand index up to the first error. Refuted: an unknown option or a missing argument is reported for ever; a colon in a cluster is taken for an option."
  },
  {
   "property": "C57",
   "status": "partial",
   "theorems": [
    "Minilib.C57_where_partial",
    "Minilib.C57_empty_refuted",
    "Minilib.C57_refuted",
    "Minilib.C57_overflow_refuted",
    "Minilib.C57_execvpe_partial",
    "Minilib.C57_execvpe_refuted"
   ],
   "note": "Proved for a PATH without empty elements and a buffer which is large enough. Refuted: an empty element (where reads behind the end of PATH), an element longer than the buffer (written behind its end), and a name with a slash in the middle (it is searched in PATH)."
  },
  {
   "property": "C58",
   "status": "partial",
   "theorems": [
    "Minilib.C58_ranges",
    "Minilib.C58_isalpha_isalnum",
    "Minilib.C58_isxdigit",
    "Minilib.C58_isspace_isblank",
    "Minilib.C58_iscntrl_partial",
    "Minilib.C58_iscntrl_refuted",
    "Minilib.C58_ispunct_partial",
    "Minilib.C58_ispunct_refuted",
    "Minilib.C58_tolower_partial",
    "Minilib.C58_toupper_partial",
    "Minilib.C58_tolower_refuted",
    "Minilib.C58_toupper_refuted"
   ],
   "note": "Exact on every int for isalpha isalnum isdigit islower isupper isprint isgraph isascii isspace isblank isxdigit. iscntrl wrong for EOF, ispunct true for letters and digits, tolower/toupper wrong outside letters: refuted, with the exact extent proved."
  },
  {
   "property": "C59",
   "status": "proved",
   "theorems": [
    "Minilib.C59_strerror_bounds",
    "Minilib.C59_strerror",
    "Minilib.C59_strerror_injective"
   ],
   "note": ""
  },
  {
   "property": "C60",
   "status": "proved",
   "theorems": [
    "Minilib.C60_mergesort",
    "Minilib.C60_heapmake",
    "Minilib.C60_heapadjust",
    "Minilib.C60_heapsort",
    "Minilib.C60_heapsort_alone",
    "Minilib.C60_insertsort",
    "Minilib.C60_insertsort_part",
    "Minilib.C60_combsort",
    "Minilib.C60_introsort",
    "Minilib.C60_qsort",
    "Minilib.C60_ksmall",
    "Minilib.C60_shuffle"
   ],
   "note": ""
  },
  {
   "property": "C61",
   "status": "partial",
   "theorems": [
    "Minilib.C61_inet_aton_refuted",
    "Minilib.C61_inet_aton_partial"
   ],
   "note": "inet_aton returns 1 for every text: refuted. _partial: well-formed addresses are accepted with the right value."
  },
  {
   "property": "C62",
   "status": "partial",
   "theorems": [
    "Minilib.C62_ether_ntoa_partial",
    "Minilib.C62_ether_ntoa_doubled_partial",
    "Minilib.C62_ether_ntoa_refuted"
   ],
   "note": "The two hexadecimal digits of every octet are exchanged: refuted. _partial gives the exact text written and its bounds, and the addresses (octets with equal digits) for which it is right."
  },
  {
   "property": "C63",
   "status": "proved",
   "theorems": [
    "Minilib.C63_gethostname"
   ],
   "note": ""
  },
  {
   "property": "C64",
   "status": "proved",
   "theorems": [
    "Minilib.C64_errno_str"
   ],
   "note": ""
  },
  {
   "property": "C65",
   "status": "partial",
   "theorems": [
    "Minilib.C65_errstr2_partial",
    "Minilib.C65_errstr2_refuted"
   ],
   "note": "Exact for every number except 0, where the first character of the text is missing (refuted)."
  },
  {
   "property": "C66",
   "status": "partial",
   "theorems": [
    "Minilib.C66_bsd_cksum_partial",
    "Minilib.C66_bsd_cksum_refuted"
   ],
   "note": "char is signed: bytes above 127 are added as negative numbers. Refuted; _partial: equals the BSD checksum on 7 bit data. C34 covers chaining for all data."
  },
  {
   "property": "C67",
   "status": "proved",
   "theorems": [
    "Minilib.C67_div",
    "Minilib.C67_ldiv",
    "Minilib.C67_abs",
    "Minilib.C67_labs"
   ],
   "note": ""
  },
  {
   "property": "C68",
   "status": "partial",
   "theorems": [
    "Minilib.C68_fputs",
    "Minilib.C68_dprints",
    "Minilib.C68_dprints_all",
    "Minilib.C68_fprintfs",
    "Minilib.C68_fprintfs_all",
    "Minilib.C68_selection",
    "Minilib.C68_short_refuted"
   ],
   "note": "Exact sequence of offers for every kernel. Refuted for kernels that take parts: the rest of a piece is dropped and the next one follows."
  },
  {
   "property": "C69",
   "status": "partial",
   "theorems": [
    "Minilib.C69_fileno",
    "Minilib.C69_feof_refuted",
    "Minilib.C69_fseek_refuted",
    "Minilib.C69_clearerr_refuted",
    "Minilib.C69_flags_partial"
   ],
   "note": "Refuted: feof and ferror test the same two bits; seeking to position 0 (rewind) does not clear the flags; clearerr discards a character pushed back. Everything else is proved."
  },
  {
   "property": "C70",
   "status": "partial",
   "theorems": [
    "Minilib.C70_mode_partial",
    "Minilib.C70_append_partial",
    "Minilib.C70_refuted"
   ],
   "note": "Refuted for modes starting with a: O_CREAT is missing (and the file is opened for reading and writing). Proved for all other modes of up to six characters."
  },
  {
   "property": "C71",
   "status": "proved",
   "theorems": [
    "Minilib.C71_fgetnum"
   ],
   "note": ""
  },
  {
   "property": "C72",
   "status": "proved",
   "theorems": [
    "Minilib.C72_execl"
   ],
   "note": ""
  },
  {
   "property": "C73",
   "status": "partial",
   "theorems": [
    "Minilib.C73_system_partial",
    "Minilib.C73_system_hangs_refuted",
    "Minilib.C73_system_refuted",
    "Minilib.C73_system_eintr_refuted",
    "Minilib.C73_vexec_partial",
    "Minilib.C73_vexec_refuted"
   ],
   "note": "Proved for a child which exits (system: when waitpid is not interrupted). Refuted: system never returns when the child is killed by a signal and uses an uninitialised status when the first waitpid is interrupted; vexec returns 0 for a killed child."
  },
  {
   "property": "C74",
   "status": "partial",
   "theorems": [
    "Minilib.C74_sample_never",
    "Minilib.C74_sample_refuted"
   ],
   "note": "Refuted outright: for every sample smaller than the array the last round (i = 0) runs into 0/0 and exchanges with the element behind the array. Nothing positive can be proved."
  },
  {
   "property": "C75",
   "status": "partial",
   "theorems": [
    "Minilib.C75_history_partial",
    "Minilib.C75_contents_partial",
    "Minilib.C75_frame_partial",
    "Minilib.C75_giveback",
    "Minilib.C75_refused_refuted",
    "Minilib.C75_brk_refuted",
    "Minilib.C75_zero_refuted",
    "Minilib.C75_large_refuted",
    "Minilib.C75_inner_refuted",
    "Minilib.C75_arena_free",
    "Minilib.C75_arena_realloc_partial"
   ],
   "note": "The history theorems cover every sequence of calls with requests of 1 to 268435448 bytes, granted by the kernel, and realloc of the block that ends at the break. Refuted: brk returns 0 and malloc_brk a pointer although the kernel refused (the answer of brk(2) is tested as if it were an error number); a block of malloc_brk(0) is given back together with its neighbour, a later free then writes into another block; blocks of 2^28 bytes are never given back; realloc of an inner block copies twice the old size into the arena and overwrites the block behind the new one."
  },
  {
   "property": "C76",
   "status": "partial",
   "theorems": [
    "Minilib.C76_scandir_partial",
    "Minilib.C76_alphasort",
    "Minilib.C76_error_refuted"
   ],
   "note": "The listing theorem covers every directory (in total up to 268 MB) that the kernel delivers without error while the data segment may grow. Refuted: errors of open return -1 with errno 1 whatever the error was (seterrno is called with the -1 and overwrites errno). A refusing kernel is not covered (brk does not notice the refusal, C75; the result of the last realloc is ignored)."
  },
  {
   "property": "C77",
   "status": "partial",
   "theorems": [
    "Minilib.C77_agree",
    "Minilib.C77_sound_partial",
    "Minilib.C77_exact_partial",
    "Minilib.C77_count_partial",
    "Minilib.C77_count_refuted",
    "Minilib.C77_digits_refuted",
    "Minilib.C77_overrun_refuted",
    "Minilib.C77_brace_refuted",
    "Minilib.C77_char_partial",
    "Minilib.C77_char_refuted",
    "Minilib.C77_example_refuted",
    "Minilib.C77_kept_refuted",
    "Minilib.C77_separator_refuted"
   ],
   "note": "Reports are proved for patterns with classes, '*', '+', '%' with and without numbers, '#', '$' and ',' (texts up to 2 GB; same limits on negated sets, ']' and '$' in the text as C52), exactness without ',' for patterns of C52's form; counts of one digit and '&' only in front of a pattern. Refuted: {3a} does not accept aaa, two-digit counts are misread (10 means 11), {2?} runs past the end of the text and '{' past the end of the pattern, '&' moves on by one character more than the callback says (undefined on the last character; the documented x&x example fails), the number of a '&' is kept for the next one, a ',' is not skipped at the end of the text."
  },
  {
   "property": "C78",
   "status": "partial",
   "theorems": [
    "Minilib.C78_scan_partial",
    "Minilib.C78_answers_partial",
    "Minilib.C78_stuck_refuted",
    "Minilib.C78_order_refuted",
    "Minilib.C78_missing_refuted",
    "Minilib.C78_silent_refuted",
    "Minilib.C78_scan_refuted",
    "Minilib.C78_value_refuted",
    "Minilib.C78_exact_refuted",
    "Minilib.C78_colon_refuted",
    "Minilib.C78_again_refuted"
   ],
   "note": "Proved when no name in the table of long options stands behind two names it abbreviates and the scan ends neither at a ':' given as an option nor at a value for an option that takes none. Refuted: operands in front of a '--' come out behind those that follow it; a missing argument of a short option is answered ':' whatever the option string starts with, one of a long option always '?'; an unknown long option prints its message although opterr is 0; an exact name behind two longer ones is called ambiguous; a value for an option without argument is silently accepted; '-:' is answered as an option; after an error every further call repeats the same answer; the number of arguments of the first scan is kept for all later vectors."
  },
  {
   "property": "C79",
   "status": "partial",
   "theorems": [
    "Minilib.C79_bswap",
    "Minilib.C79_involution",
    "Minilib.C79_endian_partial",
    "Minilib.C79_endian_refuted",
    "Minilib.C79_reversed_refuted",
    "Minilib.C79_agrees"
   ],
   "note": "Proved for the swaps, and for all conversions when __BYTE_ORDER is defined as 1234. Refuted as the header stands: no header of the library defines __BYTE_ORDER, an undefined identifier counts as 0 in #if, and the conversions for a big-endian machine are chosen: htobe32 leaves the number as it is, htole32 reverses its bytes."
  },
  {
   "property": "C80",
   "status": "partial",
   "theorems": [
    "Minilib.C80_add",
    "Minilib.C80_sub",
    "Minilib.C80_add_sub",
    "Minilib.C80_cmp",
    "Minilib.C80_clear_isset",
    "Minilib.C80_defined_refuted",
    "Minilib.C80_usleep",
    "Minilib.C80_sleep_partial",
    "Minilib.C80_sleep_refuted"
   ],
   "note": "Arithmetic proved when the seconds do not overflow before or after the carry. Refuted: with a borrow the difference can overflow on the way although the result is representable; sleep answers 0 when interrupted less than half a second before the end."
  },
  {
   "property": "C81",
   "status": "partial",
   "theorems": [
    "Minilib.C81_wrapper_partial",
    "Minilib.C81_large_refuted",
    "Minilib.C81_wrapper_refuted",
    "Minilib.C81_lseek_partial",
    "Minilib.C81_lseek_einval",
    "Minilib.C81_lseek_back_refuted",
    "Minilib.C81_lseek_far_refuted",
    "Minilib.C81_lseek_refuted",
    "Minilib.C81_ftruncate_partial",
    "Minilib.C81_ftruncate_refuted",
    "Minilib.C81_mprotect_value_refuted",
    "Minilib.C81_mprotect_none_refuted",
    "Minilib.C81_mprotect_partial"
   ],
   "note": "Proved for answers up to INT_MAX, lseek forwards and ftruncate below 2^32. Refuted: the answer is cut to an int, so positions behind 2 GB are reported as errors (undefined at exactly 2^31) or modulo 2^32; lseek's offset is a 32 bit asm operand, so with a cleared upper half a negative offset moves 4 GB forward while the answer is the position asked for; ftruncate to a multiple of 2^32 empties the file; mprotect answers the first word of the region, and reads the region after PROT_NONE. Refused positions and unknown origins give EINVAL and leave the file where it is (C81_lseek_einval)."
  },
  {
   "property": "C82",
   "status": "partial",
   "theorems": [
    "Minilib.C82_sigaction_partial",
    "Minilib.C82_sigaction_null_refuted",
    "Minilib.C82_signal",
    "Minilib.C82_signal_history",
    "Minilib.C82_abort_partial",
    "Minilib.C82_abort_refuted",
    "Minilib.C82_exit_errno_partial",
    "Minilib.C82_exit_errno_exec",
    "Minilib.C82_exit_nul_refuted",
    "Minilib.C82_exit_errno_refuted",
    "Minilib.C82_exit_status_refuted",
    "Minilib.C82_exit_min_refuted",
    "Minilib.C82_perror_refuted",
    "Minilib.C82_perror_partial",
    "Minilib.C82_open_partial",
    "Minilib.C82_open_refuted"
   ],
   "note": "Refuted: sigaction with NULL for the new action reads through NULL; with SIGABRT blocked abort is exit(125); exit_errno writes NULs behind its texts and behind numbers below 100 (the line itself is right), ends with status 0 for multiples of 256 and has no absolute value for INT_MIN; perror writes neither separator nor newline; open answers the negative error number even with errno."
  },
  {
   "property": "C83",
   "status": "partial",
   "theorems": [
    "Minilib.C83_parse_partial",
    "Minilib.C83_regular_partial",
    "Minilib.C83_setopt",
    "Minilib.C83_b_refuted",
    "Minilib.C83_shift_refuted",
    "Minilib.C83_defined_refuted",
    "Minilib.C83_regular_refuted"
   ],
   "note": "Refuted: an allowed b is reported as unrecognized, since the loop variable b hides the constant (C83_b_refuted); characters below a, as in -A or --help, shift by a negative number (C83_shift_refuted, C83_defined_refuted); the result is the index behind the last word with a dash (C83_regular_refuted). Proved otherwise for every vector of letter options and every set of allowed letters without b."
  },
  {
   "property": "C84",
   "status": "partial",
   "theorems": [
    "Minilib.C84_history_partial",
    "Minilib.C84_answers_partial",
    "Minilib.C84_realloc_partial",
    "Minilib.C84_again",
    "Minilib.C84_reuse",
    "Minilib.C84_kcalloc_partial",
    "Minilib.C84_negative_refuted",
    "Minilib.C84_refused_refuted",
    "Minilib.C84_usable_partial",
    "Minilib.C84_usable_refuted",
    "Minilib.C84_fail_refuted",
    "Minilib.C84_kcalloc_refuted"
   ],
   "note": "Missing: kernels that refuse memory (a pointer to unmapped memory is returned instead of NULL, refuted), negative sizes (answered with a block of no bytes, refuted), kmalloc_usable_size (answers the class number, refuted), krealloc that fails (frees the block, refuted), kcalloc of more than 2^30+4088 bytes (clears memory at NULL, refuted); krealloc of blocks already freed; other users of sbrk in between."
  },
  {
   "property": "C85",
   "status": "partial",
   "theorems": [
    "Minilib.C85_cfmakeraw",
    "Minilib.C85_settings_partial",
    "Minilib.C85_isatty",
    "Minilib.C85_restore",
    "Minilib.C85_raw_refuted",
    "Minilib.C85_get_refuted",
    "Minilib.C85_const_refuted",
    "Minilib.C85_pgrp",
    "Minilib.C85_pgrp_none"
   ],
   "note": "Missing: the definitions that are compiled use the 18 byte struct termio of the kernel with the struct termios of the headers, so that raw mode is never set (refuted for every terminal) and c_lflag is read from other fields (refuted); an opt other than the three reads into the const struct (refuted). The settings are proved for the definitions in include/."
  },
  {
   "property": "C86",
   "status": "partial",
   "theorems": [
    "Minilib.C86_sprintf_partial",
    "Minilib.C86_vsprintf_partial",
    "Minilib.C86_long_refuted",
    "Minilib.C86_va_list_refuted",
    "Minilib.C86_ptsname_r_partial",
    "Minilib.C86_overrun_refuted",
    "Minilib.C86_null_refuted",
    "Minilib.C86_ptsname",
    "Minilib.C86_grantpt_refuted"
   ],
   "note": "Missing: texts from mini_buf - 28 bytes on (refuted from mini_buf on: SIGSEGV is raised), vsprintf with a va_list (refuted: it is declared variadic), ptsname_r with a short buffer or none (refuted: it writes beyond it), the mode set by grantpt (refuted: what the master grants to others is granted on the slave). The conversions are the good ones of C38."
  },
  {
   "property": "C87",
   "status": "partial",
   "theorems": [
    "Minilib.C87_width_partial",
    "Minilib.C87_overflow_refuted",
    "Minilib.C87_text_refuted"
   ],
   "note": "Missing: numbers from 2147483600 on (refuted: signed overflow), text that is no number (refuted: COLUMNS=x gives 72), the empty text (gives 0). An entry COLUMNS without '=' is excluded, as in C45."
  },
  {
   "property": "C88",
   "status": "partial",
   "theorems": [
    "Minilib.C88_prints",
    "Minilib.C88_printsl",
    "Minilib.C88_print",
    "Minilib.C88_puts_partial",
    "Minilib.C88_puts_refuted",
    "Minilib.C88_fputc_partial",
    "Minilib.C88_fputc_refuted",
    "Minilib.C88_writes_refuted"
   ],
   "note": "Missing: the order in which puts writes text and newline and errors it hides (refuted), what fputc answers after errors and for values that are no bytes (refuted), writes and its variants write the NUL of the literal, too (refuted)."
  },
  {
   "property": "C89",
   "status": "partial",
   "theorems": [
    "Minilib.C89_stripblanks_partial",
    "Minilib.C89_stripblanklines_partial",
    "Minilib.C89_long_refuted",
    "Minilib.C89_nul_refuted"
   ],
   "note": "Proved for texts without NUL whose lines have at most 1023 bytes. Refuted for the others: a longer line overruns the buffer (always), a line starting with NUL ends the filters."
  },
  {
   "property": "C90",
   "status": "partial",
   "theorems": [
    "Minilib.C90_shrink_partial",
    "Minilib.C90_files",
    "Minilib.C90_far_refuted",
    "Minilib.C90_tmpname_refuted"
   ],
   "note": "Proved for files below 2 GB. Refuted: a segment behind 2 GB (lseek of the library answers an error); the name of the temporary file is written three bytes beyond the memory asked for, beyond the block for three of four lengths. ELF files whose program headers overlap the ELF header are excluded."
  },
  {
   "property": "C91",
   "status": "partial",
   "theorems": [
    "Minilib.C91_groups_partial",
    "Minilib.C91_unprivileged",
    "Minilib.C91_getgroups_refuted",
    "Minilib.C91_count_refuted",
    "Minilib.C91_given_refuted",
    "Minilib.C91_gid_refuted"
   ],
   "note": "getgroups does not ask the kernel but reads the files (C91_getgroups_refuted), answers -1 for a list without a spare cell (C91_count_refuted); initgroups leaves out the given group (C91_given_refuted) and changes the group of the process (C91_gid_refuted). Proved: what the calls do over all histories (C91_groups_partial, C91_unprivileged)."
  },
  {
   "property": "C92",
   "status": "partial",
   "theorems": [
    "Minilib.C92_dtodec_partial",
    "Minilib.C92_exact",
    "Minilib.C92_cut",
    "Minilib.C92_nul_refuted",
    "Minilib.C92_blank_refuted",
    "Minilib.C92_zero_refuted",
    "Minilib.C92_nines_refuted"
   ],
   "note": "Proved: the exact bytes and the answer for every finite double whose whole part is an int, the billionths up to an error of 0.101, and exact if the number has at most nine decimals. Missing because the code violates it: a NUL is left in front of the dot for all positive numbers and up to -1, so the string ends there (C92_cut, C92_nul_refuted); leading zeros of the decimals are blanks (C92_blank_refuted); 0 is written as -0. (C92_zero_refuted); numbers within 10^-10 of the next whole number get the decimals 1000000000 (C92_nines_refuted)."
  },
  {
   "property": "C93",
   "status": "proved",
   "theorems": [
    "Minilib.C93_streams",
    "Minilib.C93_state",
    "Minilib.C93_open",
    "Minilib.C93_closed",
    "Minilib.C93_dirfd",
    "Minilib.C93_close_error"
   ],
   "note": " A descriptor that the program closed by itself is reported by closedir, the memory being released (C93_close_error)."
  },
  {
   "property": "C94",
   "status": "partial",
   "theorems": [
    "Minilib.C94_calls_partial",
    "Minilib.C94_state_partial",
    "Minilib.C94_closed_partial",
    "Minilib.C94_freopen_partial",
    "Minilib.C94_null_refuted",
    "Minilib.C94_fdopen_refuted"
   ],
   "note": "Refuted: freopen without a name closes the stream's descriptor and turns the stream into stdin; fdopen takes any number. Proved for the orderly histories of C43 (streams opened while a slot is free, and closed when they are the highest or followed by an open one, last slot not handed out), modes of up to six characters, with the flags of C70 for a."
  },
  {
   "property": "C95",
   "status": "partial",
   "theorems": [
    "Minilib.C95_die_partial",
    "Minilib.C95_die_exec",
    "Minilib.C95_die_success_refuted",
    "Minilib.C95_die_nul_refuted",
    "Minilib.C95_die_refuted",
    "Minilib.C95_dies_partial",
    "Minilib.C95_die_errno_partial",
    "Minilib.C95_if",
    "Minilib.C95_dief_partial",
    "Minilib.C95_error_partial",
    "Minilib.C95_err_partial",
    "Minilib.C95_status_refuted"
   ],
   "note": "The messages, the lines with the number and the statuses are as described, for every message, good format and number up to 199, up to NUL bytes: die writes the NUL of its literal behind the newline, and exit_errno NULs behind each of its pieces (C95_die_nul_refuted, C82_exit_nul_refuted). Fails: die, dief and dies with the number 0 report success (C95_die_success_refuted), and a status that is a multiple of 256 reports success (C95_status_refuted)."
  },
  {
   "property": "C96",
   "status": "partial",
   "theorems": [
    "Minilib.C96_arguments",
    "Minilib.C96_x32_shifted",
    "Minilib.C96_x32_frame_partial",
    "Minilib.C96_x32_frame_refuted",
    "Minilib.C96_x32_refuted",
    "Minilib.C96_aligned_refuted",
    "Minilib.C96_getenv",
    "Minilib.C96_putenv_refuted",
    "Minilib.C96_malloc",
    "Minilib.C96_brk",
    "Minilib.C96_standard",
    "Minilib.C96_atexit",
    "Minilib.C96_passwd_partial",
    "Minilib.C96_streams_partial",
    "Minilib.C96_group_refuted",
    "Minilib.C96_group_partial",
    "Minilib.C96_endpwent_refuted",
    "Minilib.C96_streams_refuted",
    "Minilib.C96_rand_refuted",
    "Minilib.C96_rand_partial",
    "Minilib.C96_vsyscall_partial",
    "Minilib.C96_vsyscall_refuted"
   ],
   "note": "Proved for arbitrary previous contents of the globals: arguments, getenv, malloc, malloc_brk, standard streams, errno, atexit, the passwd functions, and streams closed in the reverse order. Refuted when the globals are on the stack: groupfile is never initialised (the switch mini_groupfile does not exist) and getgrent reads at an indeterminate address; endpwent unmaps an indeterminate number of pages from address 0 on; rand has an arbitrary state; fclose compares with uninitialised cells and a later fopen overwrites an open stream. Refuted always: putenv of a new variable overwrites the auxiliary vector; __start_c reads beyond a vector without AT_SYSINFO. Partial theorems for globals that are zero before: groups, rand. Refuted for 32 bits: compiled without a frame, main gets the address of the first argument as argc, the arguments behind it, and the environment without its first two words; with a frame the environment is right only for one argument. Refuted for 64 bits: the stack is never aligned at the call."
  },
  {
   "property": "C97",
   "status": "partial",
   "theorems": [
    "Minilib.C97_newarray",
    "Minilib.C97_push",
    "Minilib.C97_iterate",
    "Minilib.C97_array",
    "Minilib.C97_first_partial",
    "Minilib.C97_push_address_refuted",
    "Minilib.C97_first_refuted",
    "Minilib.C97_grow_refuted",
    "Minilib.C97_nomem_refuted",
    "Minilib.C97_append_undefined",
    "Minilib.C97_append_refuted",
    "Minilib.C97_newlist_partial",
    "Minilib.C97_newlist_refuted"
   ],
   "note": "Refuted: push answers with the address behind the element, first answers an address for an empty array, the array does not grow beyond its first mapping, a failing mmap is not noticed (pointers are compared with <= 0), append of the linked list writes through the length of the element as a pointer."
  },
  {
   "property": "C98",
   "status": "partial",
   "theorems": [
    "Minilib.C98_numbers",
    "Minilib.C98_stubs_partial",
    "Minilib.C98_sys_partial",
    "Minilib.C98_stubs_refuted",
    "Minilib.C98_sys_refuted",
    "Minilib.C98_wrappers_refuted",
    "Minilib.C98_narrow_partial",
    "Minilib.C98_negative_refuted",
    "Minilib.C98_select",
    "Minilib.C98_poll",
    "Minilib.C98_open",
    "Minilib.C98_ioctl",
    "Minilib.C98_sys_brk",
    "Minilib.C98_mremap_refuted",
    "Minilib.C98_mmap_partial",
    "Minilib.C98_mmap_refuted",
    "Minilib.C98_creat",
    "Minilib.C98_mkfifo",
    "Minilib.C98_wait",
    "Minilib.C98_waitpid",
    "Minilib.C98_killpg",
    "Minilib.C98_recv_refuted",
    "Minilib.C98_fexecve_refuted",
    "Minilib.C98_sigprocmask",
    "Minilib.C98_sigsuspend",
    "Minilib.C98_unlockpt",
    "Minilib.C98_clone_refuted",
    "Minilib.C98_clone_partial"
   ],
   "note": "Exact: 85 of 100 wrappers with plain names and 258 of 304 with the prefix sys_ are faithful, the others are proved not to be. With five or six arguments the fourth (and sixth) is no operand of the asm statement. read, write, lseek, ftruncate, mprotect and mmap pass an int where the kernel takes 64 bits. mremap calls select. recv and fexecve inherit the defect of their wrappers."
  },
  {
   "property": "C99",
   "status": "partial",
   "theorems": [
    "Minilib.C99_short_errstr_total",
    "Minilib.C99_short_errstr_partial",
    "Minilib.C99_short_errstr_refuted",
    "Minilib.C99_short_errstr_injective",
    "Minilib.C99_errno_numbers",
    "Minilib.C99_signame"
   ],
   "note": "The name of 133 (EHWPOISON) is MEMPAGEFAULT, and the header has no EHWPOISON."
  },
  {
   "property": "C100",
   "status": "partial",
   "theorems": [
    "Minilib.C100_read",
    "Minilib.C100_write",
    "Minilib.C100_room",
    "Minilib.C100_sizes_refuted",
    "Minilib.C100_sizes_partial",
    "Minilib.C100_members_refuted",
    "Minilib.C100_names",
    "Minilib.C100_nibbles",
    "Minilib.C100_nibbles_set",
    "Minilib.C100_layout",
    "Minilib.C100_kinds",
    "Minilib.C100_one_kind",
    "Minilib.C100_entry_types",
    "Minilib.C100_ioc",
    "Minilib.C100_ioc_injective",
    "Minilib.C100_ioc_refuted",
    "Minilib.C100_requests"
   ],
   "note": "Missing from the full statement: struct termios has 60 bytes, the kernel's record 36; the speeds and the control characters 19 to 31 are never filled in. Sizes from 16384 bytes on reach into the direction of an ioctl request."
  },
  {
   "property": "C101",
   "status": "partial",
   "theorems": [
    "Minilib.C101_shape_partial",
    "Minilib.C101_filtered",
    "Minilib.C101_doc_partial",
    "Minilib.C101_copy",
    "Minilib.C101_code_refuted",
    "Minilib.C101_eol_refuted",
    "Minilib.C101_high",
    "Minilib.C101_bytes_refuted",
    "Minilib.C101_first_line",
    "Minilib.C101_large",
    "Minilib.C101_wide",
    "Minilib.C101_safe_refuted"
   ],
   "note": "Proved for texts below one million bytes, fewer than 100000 lines below 10000 bytes, no carriage returns, first line not empty. Refuted: code behind a comment at the start of a line is lost, comments behind code stay, non-ASCII bytes at line ends are lost, an empty first line and too large texts are undefined."
  },
  {
   "property": "C102",
   "status": "partial",
   "theorems": [
    "Minilib.C102_values_partial",
    "Minilib.C102_values_refuted",
    "Minilib.C102_words",
    "Minilib.C102_limits"
   ],
   "note": "Values of all listed constants except the two lock keys of sys/kbd.h, which the header has the wrong way round (refuted). The words of flags and the bounds of types are proved in full."
  },
  {
   "property": "C103",
   "status": "partial",
   "theorems": [
    "Minilib.C103_setjmp",
    "Minilib.C103_longjmp_partial",
    "Minilib.C103_longjmp_refuted"
   ],
   "note": "longjmp with val 0 is proved for registers whose upper half is clean; with a dirty one setjmp returns 0 (refuted). Signal mask and floating point control words are not saved by the code and not modelled."
  },
  {
   "property": "C104",
   "status": "partial",
   "theorems": [
    "Minilib.C104_macros_partial",
    "Minilib.C104_wrong",
    "Minilib.C104_macros_refuted",
    "Minilib.C104_text_partial",
    "Minilib.C104_names"
   ],
   "note": "All macros but four: AC_BGGREEN removes all colours instead of setting the background (refuted), AC_WHITE and AC_BGWHITE name no colour, AC_INVERSE hides the text."
  },
  {
   "property": "C105",
   "status": "proved",
   "theorems": [
    "Minilib.C105_st",
    "Minilib.C105_r32",
    "Minilib.C105_r64",
    "Minilib.C105_tags",
    "Minilib.C105_extra",
    "Minilib.C105_octets",
    "Minilib.C105_dscp",
    "Minilib.C105_options",
    "Minilib.C105_ctrl"
   ],
   "note": ""
  },
  {
   "property": "C106",
   "status": "partial",
   "theorems": [
    "Minilib.C106_depends_partial",
    "Minilib.C106_depends_exact",
    "Minilib.C106_depends_refuted",
    "Minilib.C106_minimal",
    "Minilib.C106_calls_exact",
    "Minilib.C106_calls_refuted",
    "Minilib.C106_calls_partial"
   ],
   "note": "Two passes over the groups are not enough: with opendir or closedir, brk is on without sys_brk; with getgroups or getgrouplist, getgrent without userdb or strcmp without its helper; with group_print, fprintf without globals; and vsprintf has lost its tag to a second, empty one (C106_depends_refuted, C106_depends_exact). For all sets without these six, everything required is on (C106_depends_partial), and for all sets nothing else (C106_minimal, with mini_0 for empty tags). 36 functions call something that is not compiled when they are switched on alone (C106_calls_refuted, C106_calls_exact names the way for each); for every other function in every set without the six, all that is called is compiled (C106_calls_partial)."
  },
  {
   "property": "C107",
   "status": "partial",
   "theorems": [
    "Minilib.C107_agree_partial",
    "Minilib.C107_sound_partial",
    "Minilib.C107_exact_partial",
    "Minilib.C107_count_partial",
    "Minilib.C107_star_partial",
    "Minilib.C107_plus_partial",
    "Minilib.C107_bracket_partial",
    "Minilib.C107_bracket_refuted",
    "Minilib.C107_count_refuted",
    "Minilib.C107_silent_refuted",
    "Minilib.C107_gap_refuted",
    "Minilib.C107_sound_refuted",
    "Minilib.C107_negated_refuted"
   ],
   "note": "Patterns without { } ( ) @ # $ (and a few negations and escapes, ',' not at the end), with any callback for & that answers 0, -1 or a position inside the text: same answer, calls and struct as match_ext, hence sound and, under the conditions of C77, exact. {dX}, {*X}, {+X} and (X) with one class X: take what they should when something of the text is left. Refuted: a repetition or bracket at the end of the text fails; %# at the end of the text fails and calls the callback nevertheless; '#' at the end of the text accepts whatever follows it in the pattern; a negated set ends the match; '*' and others print to the standard output. Not proved: nested brackets, larger parts in brackets."
  },
  {
   "property": "C108",
   "status": "partial",
   "theorems": [
    "Minilib.C108_trunc_partial",
    "Minilib.C108_rename_partial",
    "Minilib.C108_dynamic",
    "Minilib.C108_other",
    "Minilib.C108_files_partial",
    "Minilib.C108_damaged_partial",
    "Minilib.C108_empty_partial",
    "Minilib.C108_name",
    "Minilib.C108_table_refuted",
    "Minilib.C108_source_refuted",
    "Minilib.C108_defined_refuted",
    "Minilib.C108_defined_partial"
   ],
   "note": "Names up to 1014 characters, table of program headers in the first two gigabytes. Refuted: a table behind the last loaded segment is cut off (the result can not be executed); a source whose name is 1014 characters and .trunc is overwritten; of a source shorter than its ELF header fields are used that were never read. Without a loaded segment that reaches the end of the ELF header the length wraps around and all of the file is copied, with status 2 for 64 bit files (C108_empty_partial). A 32 bit file shorter than its segments is copied with status 0 (C108_damaged_partial)."
  },
  {
   "property": "C109",
   "status": "partial",
   "theorems": [
    "Minilib.C109_cursor_partial",
    "Minilib.C109_roundtrip_partial",
    "Minilib.C109_seek_refuted",
    "Minilib.C109_back_refuted",
    "Minilib.C109_rewind_refuted",
    "Minilib.C109_tell_refuted",
    "Minilib.C109_refuted"
   ],
   "note": "Proved for every program whose seeks go forward and stay below 2 GB and which asks for positions, reads blocks, rewinds (or goes to position 0) only while no character is pushed back; the end of the file reads as 0 and positioning answers the position. Refuted beyond: fseek answers the position instead of 0, seeking backwards moves four gigabytes ahead, rewind keeps the character pushed back, ftell does not count it."
  },
  {
   "property": "C110",
   "status": "partial",
   "theorems": [
    "Minilib.C110_same_partial",
    "Minilib.C110_gone",
    "Minilib.C110_unchanged",
    "Minilib.C110_endless_refuted",
    "Minilib.C110_else_refuted",
    "Minilib.C110_prefix_refuted",
    "Minilib.C110_blank_refuted"
   ],
   "note": "Proved for every well-formed text in which no #else or #elif belongs to an #if 0, nothing but 0 follows #if in these lines, and directives are written without blanks around the #; what is taken out and that other texts stay is proved in full. Refuted: the part behind #else is lost, #if 0x1 is taken for #if 0, a blank in front of # is not seen; a part without #endif keeps the script busy for ever."
  },
  {
   "property": "C111",
   "status": "partial",
   "theorems": [
    "Minilib.C111_fill_partial",
    "Minilib.C111_again_partial",
    "Minilib.C111_unmarked",
    "Minilib.C111_end_refuted",
    "Minilib.C111_second_refuted"
   ],
   "note": "Proved for files with one place whose marks are unambiguous, incl. filling again, and for files without marks. Refuted: without an end mark all lines behind the start mark are lost without a message; a second place of the same name is emptied."
  },
  {
   "property": "C112",
   "status": "partial",
   "theorems": [
    "Minilib.C112_once_partial",
    "Minilib.C112_all_partial",
    "Minilib.C112_order_partial",
    "Minilib.C112_refuted"
   ],
   "note": "Proved in full when none of the files included is one of the seven names of line 49 (nor part of one): all files within reach, each once, in the order of a compiler. For every tree: the script ends, no file twice, and only these names can be missing. Refuted in general: the counter of the depth is not counted down for a file already seen, and then these names are left out although they were never included."
  },
  {
   "property": "C113",
   "status": "partial",
   "theorems": [
    "Minilib.C113_names_partial",
    "Minilib.C113_table",
    "Minilib.C113_compiled_partial",
    "Minilib.C113_refuted",
    "Minilib.C113_getopt_refuted",
    "Minilib.C113_pointer_refuted",
    "Minilib.C113_mark_refuted"
   ],
   "note": "Proved exactly: the functions named are those called outside of the arguments of other library calls, each once; with C106 what they need is compiled (with its exceptions). Missing: sources with _M_ in a name (refuted) and macros of their own. Refuted: calls in the arguments of another library call are not found; getopt has no macro; functions handed on as pointers are not found."
  },
  {
   "property": "C114",
   "status": "partial",
   "theorems": [
    "Minilib.C114_switch_partial",
    "Minilib.C114_unknown",
    "Minilib.C114_value",
    "Minilib.C114_autoconf_partial",
    "Minilib.C114_refuted",
    "Minilib.C114_buf_refuted"
   ],
   "note": "Proved for the functions of minilib.genconf.h, in files without lines that define a macro by its name; unknown names exactly; values; the way from a source over its configuration to what is compiled (with the exceptions of C106 and C113). False for longjmp (C114_refuted: mini_setjmp is defined instead) and compile buf (C114_buf_refuted: a size of nothing)."
  },
  {
   "property": "C115",
   "status": "partial",
   "theorems": [
    "Minilib.C115_code_partial",
    "Minilib.C115_braces_partial",
    "Minilib.C115_refuted",
    "Minilib.C115_cond_refuted",
    "Minilib.C115_label_refuted",
    "Minilib.C115_quote_refuted"
   ],
   "note": "Proved for every file whose statements hold no quote or backslash, have two bytes next to each other that are no blanks, do not contain the word global elsewhere than in an export (.global, one blank, the name), and do not contain an exported label together with something else; the braces for at most one export. Refuted: two exports, as in asm/start-linux-x64.S, leave a brace open; conditions are dropped and their lines stay; an instruction on the line of an exported label is lost; a quote ends the C string."
  },
  {
   "property": "C116",
   "status": "partial",
   "theorems": [
    "Minilib.C116_listing_partial",
    "Minilib.C116_pairs_partial",
    "Minilib.C116_elif_refuted",
    "Minilib.C116_blank_refuted"
   ],
   "note": "Proved for well-formed texts whose directives are written without blanks around the # and without #elif. Refuted: #elif is not listed; a directive with a blank behind the # is not seen and shifts the depths behind it."
  },
  {
   "property": "C117",
   "status": "partial",
   "theorems": [
    "Minilib.C117_exact",
    "Minilib.C117_only",
    "Minilib.C117_two_partial",
    "Minilib.C117_sorted_partial",
    "Minilib.C117_passes_refuted",
    "Minilib.C117_refuted",
    "Minilib.C117_order_refuted"
   ],
   "note": "The outcome is characterised exactly: going twice through the functions in the order of the hash. Nothing else is switched on, for all orders; everything up to two steps away, for all orders; everything required if functions come in front of what they depend on. Refuted: a chain of three dependencies in the wrong order is not covered (and for every number of passes one longer), so the header depends on the order of the hash."
  },
  {
   "property": "C118",
   "status": "partial",
   "theorems": [
    "Minilib.C118_exact_partial",
    "Minilib.C118_listed_partial",
    "Minilib.C118_refuted",
    "Minilib.C118_underscore_refuted",
    "Minilib.C118_cycle_refuted"
   ],
   "note": "For relations without cycles the generator ends and lists exactly the ends of the ways over names without leading underscore; all of these are switched on. Refuted: names in the middle of a chain and names with an underscore are left out; with a cycle the generator does not end."
  },
  {
   "property": "C119",
   "status": "partial",
   "theorems": [
    "Minilib.C119_declared_partial",
    "Minilib.C119_named_partial",
    "Minilib.C119_refuted",
    "Minilib.C119_blank_refuted",
    "Minilib.C119_body_refuted",
    "Minilib.C119_macro",
    "Minilib.C119_macro_next",
    "Minilib.C119_object_refuted",
    "Minilib.C119_object_value_refuted"
   ],
   "note": "The declaration is proved for all prototypes without brackets among the parameters and without ){ in the rest of the line, and for all definitions whose tag has the name (two letters at least). It fails otherwise: a function as parameter is taken for the name, a blank in front of the brace leaves the name of the tag (doc/minilib.txt:487 has a function called def), a condition in the same line hides the name. Macros with parameters are registered under their names, macros without parameters (as EOF -1, EOF (-1)) under none, so they are left out."
  },
  {
   "property": "C120",
   "status": "partial",
   "theorems": [
    "Minilib.C120_text_partial",
    "Minilib.C120_zero_refuted",
    "Minilib.C120_refuted",
    "Minilib.C120_second_refuted"
   ],
   "note": "Proved for all comments with a text in the line of the tag. Where there is none the documentation has a line 0 (doc/minilib.txt has it for malloc), and the first line of a second comment is put behind the last line of the first one."
  },
  {
   "property": "C121",
   "status": "partial",
   "theorems": [
    "Minilib.C121_once_partial",
    "Minilib.C121_brings",
    "Minilib.C121_any_partial",
    "Minilib.C121_alike_refuted",
    "Minilib.C121_refuted"
   ],
   "note": "Proved for headers whose names are not alike, i.e. differ in more than dots, slashes and underscores; with conditions among the declarations (C121_any_partial, without #elif) and exactly for plain ones (C121_once_partial, C121_brings). Of two headers with names alike (sys/a.h, sys_a.h) the second brings nothing."
  },
  {
   "property": "C122",
   "status": "partial",
   "theorems": [
    "Minilib.C122_shown_partial",
    "Minilib.C122_bracket_refuted",
    "Minilib.C122_refuted",
    "Minilib.C122_name_refuted"
   ],
   "note": "Proved for attributes without brackets inside and names that have none of the words inside. It fails for attributes as they are written, with two brackets, the second one of which stays, and for names such as inlined."
  },
  {
   "property": "C123",
   "status": "partial",
   "theorems": [
    "Minilib.C123_shown_partial",
    "Minilib.C123_one_comma",
    "Minilib.C123_noparams_refuted",
    "Minilib.C123_refuted",
    "Minilib.C123_number_refuted"
   ],
   "note": "The text and the name are proved for all definitions with parameters none of which is empty or a number. It fails for all calls without parameters: the reference shows DEF_syscall(sync,0), DEF_syscall(fork,0), DEF_syscall(getpid,0 ) (doc/minilib.txt:205, 3146, 3181); and for parameters that are numbers. DEF_syscallret (one use) is not modelled."
  },
  {
   "property": "C124",
   "status": "partial",
   "theorems": [
    "Minilib.C124_exact",
    "Minilib.C124_standard",
    "Minilib.C124_listed",
    "Minilib.C124_one_partial",
    "Minilib.C124_twice_refuted",
    "Minilib.C124_refuted"
   ],
   "note": "Where a function is listed is proved exactly, for all files; standard functions and functions that are defined once are in one header only. It fails for functions defined twice under different tags: the reference has tcgetattr and tcsetattr twice (doc/minilib.txt:1800, 3242)."
  }
 ]
}
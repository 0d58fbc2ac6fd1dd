{
"C01": "strings shorter than 2^31 bytes (the code counts with int)",
"C02": "",
"C03": "",
"C04": "refuted as stated: strncpy/stpncpy read src[n] when the source fills the window; partial theorems assume that byte is readable, or a terminated source",
"C05": "strlcpy proved; stplcpy writes its NUL at dest[size] when the source is at least size bytes long (refuted); exact behaviour of both cases proved",
"C06": "strings shorter than 2^31-1 bytes",
"C07": "refuted (length difference always gives 1, non-letters collide, strncasecmp returns 1 on equal prefixes and -1 for the limit 0); partial, on bytes 0x20-0x3f, letters, 0x60-0x7f: zero iff equal modulo case (strncasecmp: and ended within the limit), sign for equal lengths, and sign of the first difference for strings of any length",
"C08": "refuted for c outside -128..127 and for strrchr(s,0); proved for every char value",
"C09": "strcspn proved for both build variants; strspn refuted, exact result characterised",
"C10": "refuted: strpbrk returns s for every non-empty s; exact result proved",
"C100": "Missing from the full statement: struct termios has 60 bytes, the kernel's record 36; the speeds and the control characters 19 to 31 are never filled in. Sizes from 16384 bytes on reach into the direction of an ioctl request.",
"C101": "Proved for texts below one million bytes, fewer than 100000 lines below 10000 bytes, no carriage returns, first line not empty. Refuted: code behind a comment at the start of a line is lost, comments behind code stay, non-ASCII bytes at line ends are lost, an empty first line and too large texts are undefined.",
"C102": "Values of all listed constants except the two lock keys of sys/kbd.h, which the header has the wrong way round (refuted). The words of flags and the bounds of types are proved in full.",
"C103": "longjmp with val 0 is proved for registers whose upper half is clean; with a dirty one setjmp returns 0 (refuted). Signal mask and floating point control words are not saved by the code and not modelled.",
"C104": "All macros but four: AC_BGGREEN removes all colours instead of setting the background (refuted), AC_WHITE and AC_BGWHITE name no colour, AC_INVERSE hides the text.",
"C106": "Two passes over the groups are not enough: with opendir or closedir, brk is on without sys_brk; with getgroups or getgrouplist, getgrent without userdb or strcmp without its helper; with group_print, fprintf without globals; and vsprintf has lost its tag to a second, empty one (C106_depends_refuted, C106_depends_exact). For all sets without these six, everything required is on (C106_depends_partial), and for all sets nothing else (C106_minimal, with mini_0 for empty tags). 36 functions call something that is not compiled when they are switched on alone (C106_calls_refuted, C106_calls_exact names the way for each); for every other function in every set without the six, all that is called is compiled (C106_calls_partial).",
"C107": "Patterns without { } ( ) @ # $ (and a few negations and escapes, ',' not at the end), with any callback for & that answers 0, -1 or a position inside the text: same answer, calls and struct as match_ext, hence sound and, under the conditions of C77, exact. {dX}, {*X}, {+X} and (X) with one class X: take what they should when something of the text is left. Refuted: a repetition or bracket at the end of the text fails; %# at the end of the text fails and calls the callback nevertheless; '#' at the end of the text accepts whatever follows it in the pattern; a negated set ends the match; '*' and others print to the standard output. Not proved: nested brackets, larger parts in brackets.",
"C108": "Names up to 1014 characters, table of program headers in the first two gigabytes. Refuted: a table behind the last loaded segment is cut off (the result can not be executed); a source whose name is 1014 characters and .trunc is overwritten; of a source shorter than its ELF header fields are used that were never read. Without a loaded segment that reaches the end of the ELF header the length wraps around and all of the file is copied, with status 2 for 64 bit files (C108_empty_partial). A 32 bit file shorter than its segments is copied with status 0 (C108_damaged_partial).",
"C109": "Proved for every program whose seeks go forward and stay below 2 GB and which asks for positions, reads blocks, rewinds (or goes to position 0) only while no character is pushed back; the end of the file reads as 0 and positioning answers the position. Refuted beyond: fseek answers the position instead of 0, seeking backwards moves four gigabytes ahead, rewind keeps the character pushed back, ftell does not count it.",
"C11": "refuted for empty big with non-empty little (overread); proved otherwise",
"C110": "Proved for every well-formed text in which no #else or #elif belongs to an #if 0, nothing but 0 follows #if in these lines, and directives are written without blanks around the #; what is taken out and that other texts stay is proved in full. Refuted: the part behind #else is lost, #if 0x1 is taken for #if 0, a blank in front of # is not seen; a part without #endif keeps the script busy for ever.",
"C111": "Proved for files with one place whose marks are unambiguous, incl. filling again, and for files without marks. Refuted: without an end mark all lines behind the start mark are lost without a message; a second place of the same name is emptied.",
"C112": "Proved in full when none of the files included is one of the seven names of line 49 (nor part of one): all files within reach, each once, in the order of a compiler. For every tree: the script ends, no file twice, and only these names can be missing. Refuted in general: the counter of the depth is not counted down for a file already seen, and then these names are left out although they were never included.",
"C113": "Proved exactly: the functions named are those called outside of the arguments of other library calls, each once; with C106 what they need is compiled (with its exceptions). Missing: sources with _M_ in a name (refuted) and macros of their own. Refuted: calls in the arguments of another library call are not found; getopt has no macro; functions handed on as pointers are not found.",
"C114": "Proved for the functions of minilib.genconf.h, in files without lines that define a macro by its name; unknown names exactly; values; the way from a source over its configuration to what is compiled (with the exceptions of C106 and C113). False for longjmp (C114_refuted: mini_setjmp is defined instead) and compile buf (C114_buf_refuted: a size of nothing).",
"C115": "Proved for every file whose statements hold no quote or backslash, have two bytes next to each other that are no blanks, do not contain the word global elsewhere than in an export (.global, one blank, the name), and do not contain an exported label together with something else; the braces for at most one export. Refuted: two exports, as in asm/start-linux-x64.S, leave a brace open; conditions are dropped and their lines stay; an instruction on the line of an exported label is lost; a quote ends the C string.",
"C116": "Proved for well-formed texts whose directives are written without blanks around the # and without #elif. Refuted: #elif is not listed; a directive with a blank behind the # is not seen and shifts the depths behind it.",
"C117": "The outcome is characterised exactly: going twice through the functions in the order of the hash. Nothing else is switched on, for all orders; everything up to two steps away, for all orders; everything required if functions come in front of what they depend on. Refuted: a chain of three dependencies in the wrong order is not covered (and for every number of passes one longer), so the header depends on the order of the hash.",
"C118": "For relations without cycles the generator ends and lists exactly the ends of the ways over names without leading underscore; all of these are switched on. Refuted: names in the middle of a chain and names with an underscore are left out; with a cycle the generator does not end.",
"C119": "The declaration is proved for all prototypes without brackets among the parameters and without ){ in the rest of the line, and for all definitions whose tag has the name (two letters at least). It fails otherwise: a function as parameter is taken for the name, a blank in front of the brace leaves the name of the tag (doc/minilib.txt:487 has a function called def), a condition in the same line hides the name. Macros with parameters are registered under their names, macros without parameters (as EOF -1, EOF (-1)) under none, so they are left out.",
"C12": "",
"C120": "Proved for all comments with a text in the line of the tag. Where there is none the documentation has a line 0 (doc/minilib.txt has it for malloc), and the first line of a second comment is put behind the last line of the first one.",
"C121": "Proved for headers whose names are not alike, i.e. differ in more than dots, slashes and underscores; with conditions among the declarations (C121_any_partial, without #elif) and exactly for plain ones (C121_once_partial, C121_brings). Of two headers with names alike (sys/a.h, sys_a.h) the second brings nothing.",
"C122": "Proved for attributes without brackets inside and names that have none of the words inside. It fails for attributes as they are written, with two brackets, the second one of which stays, and for names such as inlined.",
"C123": "The text and the name are proved for all definitions with parameters none of which is empty or a number. It fails for all calls without parameters: the reference shows DEF_syscall(sync,0), DEF_syscall(fork,0), DEF_syscall(getpid,0 ) (doc/minilib.txt:205, 3146, 3181); and for parameters that are numbers. DEF_syscallret (one use) is not modelled.",
"C124": "Where a function is listed is proved exactly, for all files; standard functions and functions that are defined once are in one header only. It fails for functions defined twice under different tags: the reference has tcgetattr and tcsetattr twice (doc/minilib.txt:1800, 3242).",
"C13": "refuted: strdup allocates no room for the NUL (it overwrites the neighbour's header when strlen is a multiple of 4), strndup copies one byte too many when it truncates. Partial: strlen not a multiple of 4 / string not longer than n",
"C14": "both build variants of memcpy; sizes up to INT_MAX",
"C15": "refuted: moving up into an overlapping region smears; proved for dest <= src and for disjoint regions",
"C16": "refuted: memchr(s,-1,n) does not convert c to unsigned char; memcmp(p,q,0) is -1 and bytes compare as signed char. Proved: memchr for c in 0..255, exact memcmp result for n >= 1",
"C17": "request sizes 1..INT_MAX-7",
"C18": "request sizes 1..INT_MAX-7",
"C19": "request sizes 1..INT_MAX-7",
"C20": "refuted for the seven largest int sizes (signed overflow); proved for all other sizes",
"C21": "refuted: malloc(negative) succeeds and returns a pointer into a live block; a block from malloc(0) freed out of order is lost. Partial: malloc(0) freed at once is harmless",
"C22": "refuted: only the first size bytes are cleared. Partial: exact behaviour; all zero for nmemb = 1",
"C23": "refuted in four ways: copies only about half of the old block; frees it when memory runs out; copies through NULL when the room counted is that of the old block; copies more than the new block holds when a block shrinks to between a quarter and a half, over the neighbour. Partial: old blocks of at most 8 bytes, moves whose copied part covers and fits, and shrinking below a quarter",
"C24": "refuted when the kernel refuses the mapping (error pointer not detected, 4096 added); proved whenever the mapping is granted; unmap proved",
"C25": "refuted for 0 with a width (only padding is printed), widths above 10 and INT_MIN; proved for all other values with widths up to 9 and, without width, for all values but INT_MIN, with digit grouping",
"C26": "refuted for 0 with precision 0 (empty text), LONG_MIN (overflow) and the digit separator in front of numbers of 3, 6, ... digits (leading separator); proved for all other 64 bit values and precisions up to 20, and the groups of all other numbers",
"C27": "hex proved for paddings up to 8 and refuted above; itobin appends a blank (refuted), digits proved for every group size; itooct emits one indeterminate byte first (refuted), the following digits proved",
"C28": "atoi refuted for trailing text and INT_MIN, atol refuted for LONG_MIN; proved for all other values, incl. the round trips with itodec/ltodec",
"C29": "refuted: the digit equal to the base is accepted, overflow is undefined, '+' not accepted; proved for all bases, white space, minus sign, base deduction when the value fits",
"C35": "ipoweriui is exact for every base and exponent: x^n when it fits an int, undefined behaviour otherwise. ipoweri converts a negative exponent to unsigned: refuted with a witness; _partial covers exponents >= 0.",
"C36": "Refuted: three states are fixed points of the generator (srand(0x4e260138) makes rand return one value forever), and the update is not injective. C36_stuck_states_partial shows these are the only stuck states; zero is left after one call.",
"C37": "Proved for every list of format items (literals, %% d u ld lu x X o b s c f with any modifiers, widths and group sizes in parentheses), every size >= 1 and all arguments except those named in SafeItem: nothing outside buf[0..size) is written; a single %f also with up to 13 decimals (C37_double_partial). Refuted: padding of %Ns is not checked, %'d of a negative ten digit number takes 15 bytes where 14 were checked, %d of INT_MIN overflows, %b of a number with the top bit set takes 34 bytes where 33 were checked, %99f writes its NUL far behind the text without a check, %f of a number beyond the ints is undefined, a format ending in a lone % is read beyond its end.",
"C38": "Proved for every list of good items (see Conv.Good): exact text, NUL and length; the exact bytes of a single %f with up to nine decimals (C38_double_partial), whose string is the whole part only (C38_double_cut). Good are also widths that the number fills by itself, the width 10 with blanks, and %'ld of numbers whose number of digits is no multiple of three. Refuted: %u of 0 prints a blank, %5d of -42 takes six characters, %12u is not padded at all, %'lu of 123 begins with the separator, %5x pads with zeros, %5c ignores the width, %b prints a blank at the end and %(8)b puts its groups in the wrong places, %f leaves a NUL in front of the dot, has nine decimals by default and takes the width for the number of decimals. Missing: those conversions, %o (prints an indeterminate character first, see C27).",
"C39": "Exact for every text shorter than the buffer, and for longer texts with one byte behind the buffer; refuted: a text that fills the buffer puts the NUL at buf[size]; a format ending in '%' is read past its NUL.",
"C40": "Every allocation history, every safe format (SafeItem, as in C37), fitting or not; padded strings when 27 bytes (31 with %b) are to spare. Refuted for a padded string that does not fit, and for vfprintf, a macro for fprintf, when it is given a va_list as the standard says.",
"C41": "Exact characterisation of fgets, fgetsn and fgetsp for every stream, every chunking of reads and every pattern of read errors. fgetsp is proved to stay within its buffer. fgets and fgetsn are refuted: a line of size bytes or more puts the NUL at buf[size], and an error within a line is not reported; the partial theorems are for shorter lines, or for a buffer with one byte more; the loop theorems say that consecutive calls deliver the whole stream, after errors a prefix of it (data without NUL bytes, which end a line and are lost).",
"C42": "Refuted in four ways: end of file is reported as 0, a byte from 128 on comes back negative after ungetc, ungetc of a NUL is lost, and getchar reads through NULL when ungetc is compiled in. Proved for every interleaving of fgetc and ungetc of the bytes 1 to 127 with 0 as the end, and for getchar without ungetc.",
"C43": "Refuted: a slot still open is handed out after certain orders of closing; with 16 slots in use fopen and fclose read behind the table; ungetc of a byte from 128 on makes a slot look free. Proved for the histories in which a stream is closed while it is the highest one open or its successor is open, the last slot was not handed out when closing, the standard streams stay open and at most 16 streams are opened.",
"C44": "Refuted: the transfer ends at the first short answer of the kernel, and fread ignores a character pushed back. Proved: the exact outcome for every kernel, and complete transfers for kernels that do not answer short.",
"C45": "Refuted: the comparison runs on behind the NUL when an entry without '=' equals the name. Proved: the first variable with exactly this name, for environments whose entries have a '='.",
"C46": "Refuted: an entry is chosen by a common beginning (putenv, setenv: of a longer name, unsetenv: of a shorter one), the new entry may go past the array the kernel supplied, setenv asks malloc for one byte too few, and a failed malloc in setenv drops the variables behind. Proved without these situations: exact effect of each call, and of every history of calls on getenv.",
"C47": "Refuted: with ATEXIT_MAX handlers the startup code looks one cell behind the table and, when the program's appdata pointer there is not NULL, calls it. Proved: answers of every registration, and the calls in reverse order for tables that are not full or when appdata is NULL.",
"C48": "_NSIG is 32 in this library, so only signals 1..30 work (proved exactly); 31..64 are refused and 0 is an undefined shift. Refuted for 1..64.",
"C50": "All macros exact for killed/stopped children and exit codes < 128; WIFSTOPPED overflows int (undefined) on exit codes >= 128 and on the continued status, which refutes the full statement. The other macros are exact for every event (C50_wait_others).",
"C51": "ALIGN_n proved for every power of two. ALIGN_P shifts by 8 instead of 3: refuted; _partial gives the values for which it is right.",
"C52": "Safety and termination hold for every text and pattern (C52_safe). Soundness is proved for patterns without negated classes and texts without the characters for which classes and '$' are wrong; exactness for patterns where something behind a '*', '+', '%', '#' or '$' takes a character and no '+' or '%' is at the end. Refuted: '+' at the end of the text, negated classes, ']' in a class, '$' as a literal, '%#*' at the end of the text.",
"C53": "dirname: proved for every path. basename refuted: a path of one component followed by a slash gives '/', and of three and more slashes at the end some stay. Proved for all other paths.",
"C54": "readdir proved for every split of the directory by the kernel, with or without failures. Refuted: telldir on a new stream reads an uninitialised field, seekdir keeps only 32 bits of the position for telldir, errno is always EPERM after a failure. Proved for all sequences of calls with positions below 2^31 after a first rewinddir.",
"C55": "Proved over every history of calls for files of well-formed lines (numbers up to INT_MAX, newline at the end, at most 63 members), for groups with enough zero bytes behind the file, for names under the condition pwSafe. Refuted: the second lookup of a missing user name dereferences NULL; after endpwent an old entry is read in unmapped memory; numbers above INT_MAX overflow; a group without members gets one empty member; a group file whose size is a multiple of the page size is read behind the mapping; the last member of a file without final newline is not terminated; getusergroups fails when the list fits exactly, and getgrouplist then writes before the list. At an empty line both getpwent and getgrent answer that there are no more entries (C55_emptyuser_refuted, C55_emptyline_refuted).",
"C56": "Proved for contrib/getopt: exact options, arguments and operand index up to the first error. Refuted: an unknown option or a missing argument is reported for ever; a colon in a cluster is taken for an option.",
"C57": "Proved for a PATH without empty elements and a buffer which is large enough. Refuted: an empty element (where reads behind the end of PATH), an element longer than the buffer (written behind its end), and a name with a slash in the middle (it is searched in PATH).",
"C58": "Exact on every int for isalpha isalnum isdigit islower isupper isprint isgraph isascii isspace isblank isxdigit. iscntrl wrong for EOF, ispunct true for letters and digits, tolower/toupper wrong outside letters: refuted, with the exact extent proved.",
"C61": "inet_aton returns 1 for every text: refuted. _partial: well-formed addresses are accepted with the right value.",
"C62": "The two hexadecimal digits of every octet are exchanged: refuted. _partial gives the exact text written and its bounds, and the addresses (octets with equal digits) for which it is right.",
"C65": "Exact for every number except 0, where the first character of the text is missing (refuted).",
"C66": "char is signed: bytes above 127 are added as negative numbers. Refuted; _partial: equals the BSD checksum on 7 bit data. C34 covers chaining for all data.",
"C68": "Exact sequence of offers for every kernel. Refuted for kernels that take parts: the rest of a piece is dropped and the next one follows.",
"C69": "Refuted: feof and ferror test the same two bits; seeking to position 0 (rewind) does not clear the flags; clearerr discards a character pushed back. Everything else is proved.",
"C70": "Refuted for modes starting with a: O_CREAT is missing (and the file is opened for reading and writing). Proved for all other modes of up to six characters.",
"C73": "Proved for a child which exits (system: when waitpid is not interrupted). Refuted: system never returns when the child is killed by a signal and uses an uninitialised status when the first waitpid is interrupted; vexec returns 0 for a killed child.",
"C74": "Refuted outright: for every sample smaller than the array the last round (i = 0) runs into 0/0 and exchanges with the element behind the array. Nothing positive can be proved.",
"C75": "The history theorems cover every sequence of calls with requests of 1 to 268435448 bytes, granted by the kernel, and realloc of the block that ends at the break. Refuted: brk returns 0 and malloc_brk a pointer although the kernel refused (the answer of brk(2) is tested as if it were an error number); a block of malloc_brk(0) is given back together with its neighbour, a later free then writes into another block; blocks of 2^28 bytes are never given back; realloc of an inner block copies twice the old size into the arena and overwrites the block behind the new one.",
"C76": "The listing theorem covers every directory (in total up to 268 MB) that the kernel delivers without error while the data segment may grow. Refuted: errors of open return -1 with errno 1 whatever the error was (seterrno is called with the -1 and overwrites errno). A refusing kernel is not covered (brk does not notice the refusal, C75; the result of the last realloc is ignored).",
"C77": "Reports are proved for patterns with classes, '*', '+', '%' with and without numbers, '#', '$' and ',' (texts up to 2 GB; same limits on negated sets, ']' and '$' in the text as C52), exactness without ',' for patterns of C52's form; counts of one digit and '&' only in front of a pattern. Refuted: {3a} does not accept aaa, two-digit counts are misread (10 means 11), {2?} runs past the end of the text and '{' past the end of the pattern, '&' moves on by one character more than the callback says (undefined on the last character; the documented x&x example fails), the number of a '&' is kept for the next one, a ',' is not skipped at the end of the text.",
"C78": "Proved when no name in the table of long options stands behind two names it abbreviates and the scan ends neither at a ':' given as an option nor at a value for an option that takes none. Refuted: operands in front of a '--' come out behind those that follow it; a missing argument of a short option is answered ':' whatever the option string starts with, one of a long option always '?'; an unknown long option prints its message although opterr is 0; an exact name behind two longer ones is called ambiguous; a value for an option without argument is silently accepted; '-:' is answered as an option; after an error every further call repeats the same answer; the number of arguments of the first scan is kept for all later vectors.",
"C79": "Proved for the swaps, and for all conversions when __BYTE_ORDER is defined as 1234. Refuted as the header stands: no header of the library defines __BYTE_ORDER, an undefined identifier counts as 0 in #if, and the conversions for a big-endian machine are chosen: htobe32 leaves the number as it is, htole32 reverses its bytes.",
"C80": "Arithmetic proved when the seconds do not overflow before or after the carry. Refuted: with a borrow the difference can overflow on the way although the result is representable; sleep answers 0 when interrupted less than half a second before the end.",
"C81": "Proved for answers up to INT_MAX, lseek forwards and ftruncate below 2^32. Refuted: the answer is cut to an int, so positions behind 2 GB are reported as errors (undefined at exactly 2^31) or modulo 2^32; lseek's offset is a 32 bit asm operand, so with a cleared upper half a negative offset moves 4 GB forward while the answer is the position asked for; ftruncate to a multiple of 2^32 empties the file; mprotect answers the first word of the region, and reads the region after PROT_NONE. Refused positions and unknown origins give EINVAL and leave the file where it is (C81_lseek_einval).",
"C82": "Refuted: sigaction with NULL for the new action reads through NULL; with SIGABRT blocked abort is exit(125); exit_errno writes NULs behind its texts and behind numbers below 100 (the line itself is right), ends with status 0 for multiples of 256 and has no absolute value for INT_MIN; perror writes neither separator nor newline; open answers the negative error number even with errno.",
"C83": "Refuted: an allowed b is reported as unrecognized, since the loop variable b hides the constant (C83_b_refuted); characters below a, as in -A or --help, shift by a negative number (C83_shift_refuted, C83_defined_refuted); the result is the index behind the last word with a dash (C83_regular_refuted). Proved otherwise for every vector of letter options and every set of allowed letters without b.",
"C84": "Missing: kernels that refuse memory (a pointer to unmapped memory is returned instead of NULL, refuted), negative sizes (answered with a block of no bytes, refuted), kmalloc_usable_size (answers the class number, refuted), krealloc that fails (frees the block, refuted), kcalloc of more than 2^30+4088 bytes (clears memory at NULL, refuted); krealloc of blocks already freed; other users of sbrk in between.",
"C85": "Missing: the definitions that are compiled use the 18 byte struct termio of the kernel with the struct termios of the headers, so that raw mode is never set (refuted for every terminal) and c_lflag is read from other fields (refuted); an opt other than the three reads into the const struct (refuted). The settings are proved for the definitions in include/.",
"C86": "Missing: texts from mini_buf - 28 bytes on (refuted from mini_buf on: SIGSEGV is raised), vsprintf with a va_list (refuted: it is declared variadic), ptsname_r with a short buffer or none (refuted: it writes beyond it), the mode set by grantpt (refuted: what the master grants to others is granted on the slave). The conversions are the good ones of C38.",
"C87": "Missing: numbers from 2147483600 on (refuted: signed overflow), text that is no number (refuted: COLUMNS=x gives 72), the empty text (gives 0). An entry COLUMNS without '=' is excluded, as in C45.",
"C88": "Missing: the order in which puts writes text and newline and errors it hides (refuted), what fputc answers after errors and for values that are no bytes (refuted), writes and its variants write the NUL of the literal, too (refuted).",
"C89": "Proved for texts without NUL whose lines have at most 1023 bytes. Refuted for the others: a longer line overruns the buffer (always), a line starting with NUL ends the filters.",
"C90": "Proved for files below 2 GB. Refuted: a segment behind 2 GB (lseek of the library answers an error); the name of the temporary file is written three bytes beyond the memory asked for, beyond the block for three of four lengths. ELF files whose program headers overlap the ELF header are excluded.",
"C91": "getgroups does not ask the kernel but reads the files (C91_getgroups_refuted), answers -1 for a list without a spare cell (C91_count_refuted); initgroups leaves out the given group (C91_given_refuted) and changes the group of the process (C91_gid_refuted). Proved: what the calls do over all histories (C91_groups_partial, C91_unprivileged).",
"C92": "Proved: the exact bytes and the answer for every finite double whose whole part is an int, the billionths up to an error of 0.101, and exact if the number has at most nine decimals. Missing because the code violates it: a NUL is left in front of the dot for all positive numbers and up to -1, so the string ends there (C92_cut, C92_nul_refuted); leading zeros of the decimals are blanks (C92_blank_refuted); 0 is written as -0. (C92_zero_refuted); numbers within 10^-10 of the next whole number get the decimals 1000000000 (C92_nines_refuted).",
"C93": " A descriptor that the program closed by itself is reported by closedir, the memory being released (C93_close_error).",
"C94": "Refuted: freopen without a name closes the stream's descriptor and turns the stream into stdin; fdopen takes any number. Proved for the orderly histories of C43 (streams opened while a slot is free, and closed when they are the highest or followed by an open one, last slot not handed out), modes of up to six characters, with the flags of C70 for a.",
"C95": "The messages, the lines with the number and the statuses are as described, for every message, good format and number up to 199, up to NUL bytes: die writes the NUL of its literal behind the newline, and exit_errno NULs behind each of its pieces (C95_die_nul_refuted, C82_exit_nul_refuted). Fails: die, dief and dies with the number 0 report success (C95_die_success_refuted), and a status that is a multiple of 256 reports success (C95_status_refuted).",
"C96": "Proved for arbitrary previous contents of the globals: arguments, getenv, malloc, malloc_brk, standard streams, errno, atexit, the passwd functions, and streams closed in the reverse order. Refuted when the globals are on the stack: groupfile is never initialised (the switch mini_groupfile does not exist) and getgrent reads at an indeterminate address; endpwent unmaps an indeterminate number of pages from address 0 on; rand has an arbitrary state; fclose compares with uninitialised cells and a later fopen overwrites an open stream. Refuted always: putenv of a new variable overwrites the auxiliary vector; __start_c reads beyond a vector without AT_SYSINFO. Partial theorems for globals that are zero before: groups, rand. Refuted for 32 bits: compiled without a frame, main gets the address of the first argument as argc, the arguments behind it, and the environment without its first two words; with a frame the environment is right only for one argument. Refuted for 64 bits: the stack is never aligned at the call.",
"C97": "Refuted: push answers with the address behind the element, first answers an address for an empty array, the array does not grow beyond its first mapping, a failing mmap is not noticed (pointers are compared with <= 0), append of the linked list writes through the length of the element as a pointer.",
"C98": "Exact: 85 of 100 wrappers with plain names and 258 of 304 with the prefix sys_ are faithful, the others are proved not to be. With five or six arguments the fourth (and sixth) is no operand of the asm statement. read, write, lseek, ftruncate, mprotect and mmap pass an int where the kernel takes 64 bits. mremap calls select. recv and fexecve inherit the defect of their wrappers.",
"C99": "The name of 133 (EHWPOISON) is MEMPAGEFAULT, and the header has no EHWPOISON."
}

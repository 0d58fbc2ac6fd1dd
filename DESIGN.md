# Formal model of michael105/minilib in Lean 4

## Approach

The C source in /repo is read as text and translated by hand, function by function, into Lean
definitions (a shallow embedding).  Theorems are proved about those definitions.

* `lean/Verif/C/` – the small C semantics used everywhere: outcomes (`Res`: normal return,
  undefined behaviour, divergence) and byte-addressed memory (`Mem`).  Loops are
  `partial_fixpoint` definitions: there is no step bound.  Undefined behaviour (touching an
  unmapped address) is an outcome of its own; every theorem `f … = .ok …` therefore says that the
  call terminates, performs no out-of-bounds access, and has exactly the stated effect.
* `lean/Verif/Model/` – the models.  Every definition cites the file and lines it models and says
  what was simplified.
* `lean/Verif/Spec/` – specifications, independent of the model's helpers.
* `lean/Verif/Lemmas/` – helper lemmas.
* `lean/Verif/Props/` – the property theorems, each with an `example` showing that its hypotheses
  are met by a concrete, non-trivial case.

Memory safety is expressed by the memory being partial: a theorem that only assumes that the
objects mentioned in its hypotheses are mapped shows that no other address is read, and since the
final memory is given *exactly* (`m.write d l`), that no other address is written.

Where the code violates the property a user relies on, the violation is proved as a theorem with a
concrete witness (`…_refuted`, `…_overflow`, …) and the strongest part that does hold is proved as
`…_partial`.

## Trusted base

* Lean's kernel and the axioms `propext`, `Classical.choice`, `Quot.sound` (nothing else; checked
  with `#print axioms` by `vcheck`).
* The hand translation C → Lean (the code is not run; the model cites the lines it was read from).
* C semantics assumed: amd64, little endian, 8-bit bytes, two's complement wraparound for the
  32/64 bit types where the model uses `BitVec`/explicit wrapping; signed `char`.
  Objects are assumed smaller than 2^31 bytes where the code counts with `int`.
* The kernel (system calls) is a parameter of the models, with its assumed behaviour stated as a
  hypothesis.

## Plan per property

* **C01** strlen and strnlen measure the string and never read past it: model strlen/strnlen as memory loops; induction on the string.
* **C02** strcpy and stpcpy make an exact copy and write nothing else: memory loops; exact final memory by induction on the source string.
* **C03** strcat and strncat append exactly, terminate, and write nothing else: as C02.
* **C04** strncpy and stpncpy write exactly n bytes: the prefix of src, then NUL padding: as C02; the read of src[n] is outside an n byte source: refutation plus partial theorem for terminated sources.
* **C05** Size-bounded copies stay inside the given size and terminate: strlcpy proved; stplcpy refuted (writes dest[n]), partial for shorter sources.
* **C06** strcmp/strncmp implement lexicographic order on unsigned bytes: simulation against list lexicographic order on unsigned bytes; order laws follow.
* **C07** strcasecmp/strncasecmp compare modulo ASCII case: refutation by witnesses; partial: exact characterisation of what is computed, equality for letters.
* **C08** strchr, strchrnul and strrchr find the first/last occurrence: induction on the string; c >= 128 never matches and strrchr(s,0) is NULL: refuted, partial otherwise.
* **C09** strspn and strcspn return the length of the maximal accepting/rejecting prefix: strcspn proved for both variants; strspn refuted, exact characterisation of the code.
* **C10** strpbrk finds the first byte of a set: refuted; characterisation of what is returned.
* **C11** strstr finds the first occurrence of a substring: first-occurrence search by induction; empty big with nonempty little overreads: partial.
* **C12** Repeated strtok_r/strtok calls enumerate exactly the maximal delimiter-free pieces: invariant over the sequence of calls; refinement to list splitting.
* **C13** strdup and strndup return an independent copy that fits its allocation: on top of the allocator model; refuted for the terminator byte; partial.
* **C14** memcpy and memset write exactly the requested range: byte loop and word-wise loop, exact final memory.
* **C15** memmove copies correctly also when the ranges overlap: forward copy: partial for dest <= src or disjoint; refuted otherwise.
* **C16** memcmp and memchr: memchr proved; memcmp equality proved, sign refuted for bytes >= 0x80 (signed compare).
* **C17** malloc hands out aligned, in-bounds, pairwise disjoint blocks in every history: arena invariant (list of blocks) preserved by malloc and free, induction over histories.
* **C18** malloc and free never modify the contents of live blocks: same invariant, frame lemma for every step.
* **C19** Freeing everything gives the whole arena back: no two adjacent free blocks + bottom block is live => all freed means empty.
* **C20** A failed malloc has no effect: case analysis of malloc.
* **C21** malloc(0) and hostile sizes are safe: refuted with a concrete history.
* **C22** calloc returns nmemb*size zero bytes: refuted; partial: nmemb = 1.
* **C23** realloc preserves the contents and fits the new block: refuted with concrete witnesses; partial.
* **C24** map_protected/unmap_protected: guarded mapping of at least len bytes: page arithmetic with a kernel model of page maps.
* **C25** Decimal conversion of int prints the right digits: digit loop vs. Nat.digits style spec; refuted at 0 with width; partial.
* **C26** Decimal conversion of long prints the right digits: same for 64 bit.
* **C27** Hexadecimal, binary and octal conversion print the right digits: same for base 16/2/8; itooct refuted.
* **C28** atoi/atol parse what the decimal printers print: round trip by induction on digits; atoi with trailing text refuted.
* **C29** strtol/strtoimax parse an integer in any base and report the end: refuted (digit equal to base accepted); partial for terminated valid digit strings.
* **C30** Byte order conversion: BitVec identities.
* **C31** IPv4 text conversion round-trips: digit arithmetic per octet, round trip.
* **C32** qsort sorts: shell sort: every gap pass is a permutation, last pass (gap 1) is insertion sort.
* **C33** bsearch finds an element iff one is present: loop invariant on the remaining interval.
* **C34** Hash functions and checksums are incremental folds: fold laws.
* **C35** Integer power: binary exponentiation invariant in ZMod/BitVec arithmetic.
* **C36** rand never gets stuck and every seed is usable: range and non-stuck; injectivity refuted.
* **C37** snprintf/vsnprintf never write outside the buffer: monadic model of the formatter with the overrun check; refuted for the combinations found, partial.
* **C38** printf output is the rendering of the format: refinement to a rendering function on lists.
* **C39** snprintfs stays in its buffer and concatenates its arguments: refuted by one byte; partial.
* **C40** Formatted output to a descriptor does not disturb allocated memory: allocator invariant: scratch is below the lowest header.
* **C41** fgets returns a NUL-terminated line prefix and respects the size: stream model; fgets refuted (size+1 bytes), fgetsp proved.
* **C42** fgetc/ungetc deliver the stream byte by byte: stream model; refuted for EOF and byte 0; partial.
* **C43** Every open stream has its own slot; a closed stream's slot is reusable: slot table invariant over histories.
* **C44** fread/fwrite transfer everything in spite of short reads and writes: loop against an arbitrary oracle of short transfers.
* **C45** getenv returns the value of exactly the named variable: induction over the environment; entry without '=' overreads: partial.
* **C46** setenv/putenv/unsetenv update exactly the named variable: refuted for prefixes; partial for prefix-free names.
* **C47** atexit handlers run in reverse order, each exactly once: list invariant, LIFO.
* **C48** Signal set operations act on one signal: BitVec lemmas; refuted for high signals, partial for 1..31.
* **C49** FD_SET/FD_CLR/FD_ISSET act on one descriptor: bit set refinement.
* **C50** wait status macros partition the status: BitVec arithmetic over all codes.
* **C51** Alignment macros round up to the next multiple: BitVec/Nat arithmetic.
* **C52** match: text matches pattern according to the documented wildcard rules: denotational spec of patterns vs. the backtracking matcher.
* **C53** basename and dirname decompose a path: string surgery on lists.
* **C54** readdir delivers every directory entry once, in order: buffer cursor refinement against arbitrary kernel chunking.
* **C55** Password and group files are parsed field by field: tokenizer vs. splitting spec.
* **C56** getopt/regetopt reports each option once, in order: state machine over the argument vector.
* **C57** PATH search tries every directory in order: loop over PATH elements.
* **C58** Character classification macros agree with ASCII: complete case check over the character domain.
* **C59** strerror/perror name the error number: digit arithmetic.
* **C60** the templates of ksort.h and qsort.h over an arbitrary element type and comparison: permutations of indices, heap invariant, runs of merge sort, potential for comb sort, logarithmic stack bound.
* **C61** inet_aton rejects malformed text: refuted; partial for well-formed addresses.
* **C62** ether_ntoa: exact text; refuted (digits of an octet exchanged).
* **C63** gethostname: copy of the kernel's name.
* **C64** errno_str: table lookup over the whole table.
* **C65** errstr2: as C64, refuted for 0.
* **C66** bsd_cksum: fold; refuted for bytes above 127.
* **C67** div/abs: integer arithmetic.
* **C68** dprints, fputs, fprintfs: the kernel is an arbitrary function answering every `write`; the sequence of offers is computed exactly.
* **C69** flags of a stream: the word of a FILE as a 32 bit vector; all functions on it bit by bit.
* **C70** fopen's mode: the loop over the mode string, compared with a table of flags.
* **C71** fgetud, fgetul: induction over the digits, on top of the characterisation of `fgetc`.
* **C72** execl: induction over the arguments.
* **C73** system, vexec: the kernel's answers are an arbitrary sequence; a fixpoint induction shows that `system` does not end for a killed child.
* **C74** ks_sample over abstract doubles with the IEEE facts needed: the last round always divides by zero.
* **C75** the data segment as a chain of blocks from its start to the break, invariant over all histories of the calls (Spec/Brk `BReach`); refusals, blocks of 0 bytes, large blocks and realloc of inner blocks are refuted by concrete runs.
* **C76** the kernel delivers an arbitrary list of batches of records; invariant over batches and records (selected records compacted at the front of the last block of the data segment), then the list and C32's qsort on the pointers; alphasort by C06; the errors are refuted by computation.
* **C77** agreement with the model of match by induction on the pattern; the reports by induction on the parsed pattern with the search loop as in C52; exactness by a second simulation against match with the numbers erased; counts by induction on the count; the defects by stepping the model.
* **C78** specification: a recursive scan of the words with clusters, abbreviations and moved operands; the state of the code represents (rest of the cluster, words left, operands moved to the end); one call makes the next step of the specification by induction on the scan; the runs by induction on the reported options; the defects by single calls at concrete vectors.
* **C79** the bytes of the swaps bit by bit, for all values; the branch chosen by the preprocessor as a parameter.
* **C80** linear arithmetic on seconds and nanoseconds, objects at addresses that may coincide; the kernel's answers to nanosleep as a hypothesis.
* **C81** the answer of the kernel as 64 bits, cut to an `int` as the wrapper does; lseek, ftruncate and mprotect on top of it; the upper half of the register of a 32 bit argument as a parameter.
* **C82** the table of actions and the kernel's rt_sigaction as functions; histories by induction; a handler is an arbitrary function of the state that may not return; exit_errno on top of C64.
* **C83** the macro as two loops over memory and argument vector; the expression of the options as a list of letters evaluated under the hiding variable b; induction over the characters and the words.
* **C84** the buckets with their free lists threaded through memory, over the model of sbrk; an invariant relating chains, headers and the blocks held, by induction over the history.
* **C85** the terminal requests of ioctl with the two layouts of the settings (struct termio of 18 bytes and struct termios of 36), the functions over them on byte level; exact effect of cfmakeraw bit by bit.
* **C86** sprintf and vsprintf over the model of vsnprintf, whose lemmas are generalised to destinations smaller than the size given; ptsname_r, ptsname and grantpt over these and the model of terminals.
* **C87** the digit loop with checked arithmetic, over the model of getenv; exact characterisation by induction over the digits.
* **C88** the macros over the models of dprints and write, for every kernel accepting all bytes; refutations for the order of evaluation in puts, the answer of fputc and the NUL written by writes.
* **C89** the loop of main over the models of fgets, strlen, isspace and prints; induction over the lines of the text, both for the exact output and for the overrun.
* **C90** the whole program on files as byte lists, with wrapping unsigned arithmetic and the library's lseek: induction over the parts for the list of regions (in order, separated, covering exactly the parts), over the regions for displacements and copying, over the blocks of a region; specification by the fields of the ELF format.
* **C91** both databases in one memory, mapped by the kernel at two places: each database's invariant is independent of changes outside of its mapping, so the invariants of C55 hold side by side over histories of calls; the credentials are part of the state.
* **C92** doubles as integer multiples of 2^-1074 with rounding to 53 bits, ties to even (Verif/C/Double.lean, with the error bound and that the nearest double is chosen); the error of the chain of roundings by linear arithmetic; the digits by C18's lemmas.
* **C93** the streams as structs in the memory of the arena allocator, a table of descriptors in the kernel; an invariant linking a list of streams (directory, position) with the structs, the heap of C17 and the table, kept by every call; each stream is a stream of C54.
* **C94** the table of streams of C43 together with the kernel's table of descriptors; an invariant kept by every call, with reopening decomposed into giving up a descriptor, closing, opening and binding; the flags from C70.
* **C95** the macros of die.c and error.h composed from the models of writesl, printsl, fprintf (C40), strerror (C59) and exit_errno (C82); what was delivered to each descriptor, the status, and the allocator afterwards.
* **C96** `_startup` as a function from arbitrary globals to globals, composed with the models of malloc (C17), malloc_brk (C75), getenv (C45), atexit (C47), the streams (C43), the user database (C55) and rand (C36).
* **C97** The arrays of macros/array.c as a record over memory; an invariant relates it to the list of pushed bytes, induction over the pushes and over the iteration. For the linked list, `append` is shown to be undefined whenever nothing is mapped at the length of the element plus 16.
* **C98** The table of all generated wrappers with the types of their parameters, the numbers of the header, and the operands of the asm statements; a specification of the calls of Linux by number and width of the parameters. A wrapper is faithful exactly when a decidable condition holds, proved for all arguments and registers; the condition is decided for every wrapper of the table.
* **C99** The tables as lists; membership decided over the whole tables, the function for all integers.
* **C100** Declarations as values with a layout function (System V ABI, bit-fields, unions, packing); the kernel's records as offset tables; reading and assigning members on byte memory for all values and assignment sequences; layout rules by induction over all declarations; mode and ioctl macros for all bit patterns. `struct termios` is larger than the kernel's record: its speeds are never filled in (`C100_sizes_refuted`, `C100_members_refuted`).
* **C101** The filter over the array `filebuf`, with access outside of it undefined; the loop over lines by induction with the flags as invariant; `Spec.Doc` describes texts whose comments do not share lines with code except at the start or the end of a comment, `Spec.Filtered` what happens otherwise. `/* c */ int x;` loses its code (`C101_code_refuted`), comments behind code stay (`C101_eol_refuted`), non-ASCII bytes at line ends are deleted (`C101_bytes_refuted`), an empty first line reads before the array, a million bytes or a line with 100000 leading blanks overrun arrays (`C101_safe_refuted`, `C101_first_line`, `C101_large`, `C101_wide`).
* **C102** Tables of the headers (Model/Constants, generated from their text) against tables of the kernel's headers (Spec/Constants, generated from linux/*.h, asm-generic/*.h and asm/*.h, not from the library); the words of flags by disjointness of their bits, for all sets. `sys/kbd.h` has K_CAPSLOCK and K_NUMLOCK the wrong way round (`C102_values_refuted`).
* **C103** A small machine (registers, zero flag, memory; Model/Jmp) runs the instructions of asm/jmp-x64.c; an invariant over all histories of calls says that a buffer holds the frame of its last setjmp. longjmp tests 64 bits of an int: `longjmp(env,0)` with a dirty upper half makes setjmp return 0 (`C103_longjmp_refuted`).
* **C104** The strings of ansicolors.h are fed byte by byte to a terminal (scanner of escape sequences and SGR of ECMA-48, written from the standard in Props/Colors); induction over texts and pieces. AC_BGGREEN is `ESC[32;0m`, which removes all colours (`C104_macros_refuted`), AC_WHITE and AC_BGWHITE name no colour and AC_INVERSE hides the text (`C104_wrong`).
* **C105** The macros on machine words; arithmetic with quotient and remainder for 32 and 64 bits, whole domain for octets. The tables of tags and code points against the rule that makes them (RFC 2474, 2597, 3246, 791).
* **C106** The preprocessor directives of minilib.h (conditions nested, definitions) as a machine that runs over the list of directives; the groups of both passes, the tags, the calls and the conditions of the definitions as tables. That the pass is a union of the passes for single switches makes a check for each name a proof for all sets. Required and called are inductive relations over the tables of tags and calls.
* **C107** The loop over the text, the `switch`, braces and brackets as mutually recursive functions over memory, with the callbacks, the struct and what is printed as a state. Agreement with the model of match_ext by a simulation over the length of the pattern and of the text, so that the theorems of C77 carry over; repetitions by induction on the number of rounds or on the text; the failures by witnesses.
* **C108** trunc32 and trunc64 as one function of struct sizes and field positions; files as lists of bytes under names, read and written under their names so that source and target may be one. The specification has the positions of the ELF standard, for both classes. Invariants of the loop over the program headers (largest end so far) and of the copying loop (what was written is a piece of the source). Where the table lies behind the segments, where the name is 1020 characters and where the file is four bytes long the claim fails: witnesses.
* **C109** Positions: a regular file with the offset the kernel keeps, and the calls of Model/Streams.lean and Model/Syscall.lean (`lseek`) on it. The specification is a file with a cursor (relation `CursorStep`); refinement by induction over the program. Expected to fail as a whole (answers of fseek, offsets backwards, character pushed back and rewind/ftell): refutations and a partial theorem.
* **C110** stripundefs.pl as a function on lists of lines with the counter of the inner loop; the specification is a preprocessor for conditional directives with arbitrary worth of conditions; simulation by induction over the lines. Expected to fail for `#else` of an `#if 0`, `#if 0x1`, blanks around `#`.
* **C111** template.pl/template.pm as a function on lists of lines (mode, rest of the input). Specification: the file cut into parts at its marks. Expected to fail without an end mark and for a second place.
* **C112** combinesources.pl as a machine with a stack of the lines still to be read. Specification: the files within reach of the source, and the order in which a compiler that reads every file once meets the lines. Expected to fail for the seven names left out at a depth above 2.
* **C113** The macros of minilib.genconf.h applied by the preprocessor to lists of tokens, then the text that is printed, then the two sed commands on it. Specification: calls, and positions inside of the arguments of another call, by counting parentheses. Connected with the switches of C106. Expected to fail for calls in arguments.
* **C114** The splitting of the shell, echo and tr on bytes, and the functions of genconfig.sh on lists of words; the result is the list of macros and the list of unknown commands. Specification: names between separators, lines that list a name. Connected with C113 and C106. Expected to fail for the names defined by hand.
* **C115** convertasm.pl as a function on lists of lines, its patterns as functions on bytes. The specification reads the result as a C compiler (adjacent string literals, escapes) and then as an assembler (statements, comments). Induction over the lines. Expected to fail for two exports, conditions, quotes, and instructions on the line of an exported label.
* **C116** ifdefs.pl as a function on lines with its counter. Specification: directives with a stack of the open conditions (Spec/Ifdefs.lean, on the lines of Spec/Preproc.lean). Induction over the lines with the invariant that the open conditions are the last ones listed at their depths. Expected to fail for `#elif` and blanks behind `#`.
* **C117** printdepend and the two passes as text; the specification reads it with the preprocessor of Spec/Preproc.lean, conditions being worth what the definitions included so far say. Exact characterisation: a function is on if it is reached by going twice through the keys in their order. Expected to fail for chains of three dependencies in the wrong order.
* **C118** rdep as a recursion (partial_fixpoint); the specification is reachability. Induction over the rank of an acyclic relation; divergence for cycles by fixpoint induction. Expected to fail for names in the middle of a chain.
* **C119** The two regular expressions as recursive functions over the line (last match first); the specification is a prototype put together from its parts. Induction over the parts. Expected to fail for functions as parameters, a blank in front of the brace and code in the same line.
* **C120** The reading of the tag, the loop over the lines of the comment and the printing as functions on bytes; the specification puts the comment and the text shown together from lines. Induction over the lines. Expected to fail where nothing is behind the tag.
* **C121** The frame of a header as lines; the specification is the preprocessor of Spec/Preproc.lean and the list of names in the order in which they come first. Induction over the includes, with the guards defined so far as invariant. Expected to fail for names that differ in dots, slashes and underscores only.
* **C122** The global substitution as a recursion over the line; the specification is a declaration put together from its parts. Induction over the parts. Expected to fail for attributes with two brackets, as they are always written, and for names with one of the words inside.
* **C123** The pattern with its backtracking as recursive functions over the line; the specification is a definition put together from its parts. Induction over the name: every longer match fails. Expected to fail for calls without parameters, which have no second comma.
* **C124** The files as lists of tags and definitions; the script as a recursion with the last tag and the system calls seen so far. The specification says from the items in front of a definition where it belongs. Induction over the files and the items. Expected to fail for functions that are defined twice.
* **C41, C42 with errors** Props/StreamErr repeats C41 for kernels that answer reads with errors: an error looks like a NUL to fgetc and takes no data; getchar is `fgetc(0)`, which reads through NULL when ungetc is compiled in.

## What is modelled

| module | code |
|---|---|
| Model/Str | src/string: strlen … strtok_r, all functions named in C01–C12 |
| Model/MemFn | src/memory: memcpy, memset, memmove, memcmp, memchr (both build variants of memcpy) |
| Model/Ksort | all of contrib/ksort.h and contrib/qsort.h; an array is a function from the index with checked bounds, the element type and the comparison are arbitrary, malloc succeeds; doubles are abstract |
| Model/Brk | src/memory/{sys_brk,getbrk,brk,sbrk,setbrk,malloc_brk,freebrk}.c and `free`/`realloc` of malloc.c compiled with mini_malloc_brk; the kernel's brk(2) maps whole pages and answers with the break; errno is not modelled |
| Model/Scandir | src/directories/{scandir,alphasort}.c with mini_errno and mini_malloc_brk; open/getdents/close are an arbitrary answer (error or batches of records); callbacks are functions of the bytes of the record; pointers in the list may be misaligned (not undefined here); getdents into unmapped memory is undefined instead of EFAULT |
| Model/MatchExt | src/match/match_ext.c | callbacks are values: the calls of p_match are recorded, p_match_char is a function of number and position; they do not change memory |
| Model/Regetopt | contrib/regetopt/regetopt.c | argv is a list of pointers, the messages are counted, not modelled; `reorder` is the shift of the pointers up to the original argc |
| Model/Malloc | src/memory/malloc.c, calloc, realloc, strdup, strndup on the arena allocator |
| Model/MapProt | map_protected, unmap_protected against a map of pages |
| Model/Conv, Strtol | src/conversions: decimal, hexadecimal, binary, octal; atoi, atol, strtol |
| Model/Sort | qsort.c, bsearch.c |
| Model/Network, Math, Bits, ErrTable | byte order, inet, ether, hashes, powers, rand, div; ctype, sigset, fd_set, wait status, ALIGN; the error tables |
| Model/Printf | vsnprintf, with all conversions built in (%f too: `mini_dtodec` defined) |
| Model/Output | write, fputs, dprints, fprintfs, snprintfs, dprintf, fprintf |
| Model/Streams | fgetc, ungetc, fgets, fgetsn, fgetsp, fgetud, fgetul, fread, fwrite, feof, ferror, clearerr, fseek, fsetpos, the table of streams with fopen, fdopen, fclose; `read` is an arbitrary function of the number of the call and the size asked for (an error, or how much to deliver); not: freopen, ftell |
| Model/Env | getenv, putenv, setenv, unsetenv; the array of entries is a list of addresses with the cells behind the NULL that belong to it, the strings are in memory; malloc is an address that is given |
| Model/Atexit | atexit and the loop over the handlers in the startup code; the cells behind the table are parameters; not: handlers which register further handlers while they run |
| Model/Path | basename, dirname |
| Model/Dir | opendirp, readdir, rewinddir, seekdir, telldir (with mini_errno); the kernel's directory is a list of records which arbitrary calls of getdents deliver in arbitrary pieces, or fail; not: opendir and closedir (allocation), readdir_r, fdopendir, versionsort (they need headers which are not part of minilib) |
| Model/Exec | where, execvpe (the choice of the path), execl (the argument vector), the waiting loops of system, vexec and vexec_q; `access` is an arbitrary predicate on paths, the answers of `waitpid` an arbitrary sequence; not: fork, vfork and execve themselves |
| Model/Userdb | token_s, token_i, userdb_open (the kernel's mapping is a parameter), getpwent, getpwnam, getpwuid, setpwent, endpwent, getgrent with its table of line ends behind the file, getgrnam, getgrgid, setgrent, endgrent, getusergroups, getgrouplist; not: messages on stderr, a failing mmap |
| Model/Getopt | getopt of contrib/getopt/getopt.h; `argv` is a list of pointers ending with NULL, the strings are in memory; not: messages on stderr |
| Model/Match | match, _match (src/match/match.c) with the text and the pattern in memory; the struct text_match is a separate value; `char` is signed; not: match_ext, match_ext2 |
| Model/Endian | headers/common/endian.h | `__BYTE_ORDER` is a parameter; in the library's headers it is not defined |
| Model/Timespec | include/bsd_timespec.h, src/process/sleep.c | objects at addresses; nanosleep is a function of the time asked for |
| Model/Syscall | include/syscall.h, include/lseek.h, include/syscall_stubs.h (lseek, ftruncate, mprotect) | asm statements: only the values of rax and of the argument registers; the kernel's lseek and ftruncate on (position, size); the wrapper of mprotect reads `*a1` (Model/MapProt leaves out this load, whose value map_protected does not use) |
| Model/Process | src/process/{sigaction,signal,abort,exit_errno}.c, src/output/perror.c, src/file/open.c | the kernel's table of signal actions; raise delivers at once; the bytes written to stderr as a list; of open only the answer |
| Model/Parseopts | macros/getoptm.h | the action for unrecognized options goes on and is recorded |
| Model/Kmalloc | contrib/kmalloc/kmalloc.c | the statistics (MSTATS) and assertions are left out; no other user of sbrk; krealloc of a freed block is only followed where it is defined |
| Model/Termios | src/termios/{tcgetattr,tcsetattr,cfmakeraw,isatty,tcgetpgrp,tcsetpgrp}.c, include/{tcgetattr,tcsetattr}.h | drivers accept all settings; speeds and requests other than these are not modelled |
| Model/Sprintf | src/output/{sprintf,vsprintf}.c, src/termios/{pty,term_width}.c | posix_openpt and unlockpt, plain calls of open and ioctl, are left out |
| Model/Prints | include/prints.h, include/fputc.h | the int 0 the macros append is taken for a null pointer; the macros printfs and eprintf, plain calls, are left out |
| Model/Tools | tools/stripblanks.c, tools/stripblanklines.c | stdin is a stream, the local array a memory object; start-up is left out |
| Model/Shrinkelf | tools/shrinkelf.c | errors of read, write and malloc and messages are left out; mode and owner of the file are left out |
| Model/Groups | src/userdb/{getgroups,initgroups}.c | the kernel keeps the order of the groups; mapping at fixed addresses; errors of open and mmap are left out |
| Model/Dtodec, C/Double | src/conversions/dtodec.c | finite doubles only; no extended precision (x87); -0.0 is 0 |
| Model/Opendir | src/directories/{opendir,opendirp,closedir,readdir,rewinddir,dirfd}.c | streams by malloc, 2048 byte buffers, mini_errno; name is the string the kernel reads; the message of a failing malloc left out; telldir and seekdir in Model/Dir; the alignment of the structs (8 byte field at 4 byte boundary) is not judged |
| Model/Reopen, Model/Fdtable | src/streams/{_fopen,fopen,fdopen,freopen}.c, include/mini_fstream.h:66-74 | names are the strings the kernel reads; whether `open` fails is arbitrary; read and write positions are not part of it |
| Model/Die | src/process/die.c, src/process/error.h | handlers run by exit are left out (C47); strerror without verbose texts |
| Model/Start | asm/start-linux-x64.c, asm/start-linux-x32.c, src/intern/startup.c, src/intern/start_c.c | up to the call of main; the arguments of x64 and x32 (with and without a frame of `_start`), 32 bit words for start_c (it is included there only); the option of guarded globals is left out |
| Model/Container | macros/array.c, macros/linkedlist.c | members of the structs are records; mmap is a parameter; macros/pool.c is unfinished and not modelled |
| Model/Wrappers | include/syscall.h, include/syscall_stubs.h, headers/linux_x64/sys/syscall.h, include/{select,mremap,poll,mkfifo,fexecve,fexecveat}.h, src/file/{open,creat}.c, src/system/ioctl.c, src/memory/{mmap,sys_brk}.c, src/process/{wait,killpg}.c, src/network/recv.c | X64 only; registers that are no operands of an asm statement, and upper halves of operands of 32 bits, have any content (the other models that call read and write take their arguments as delivered) |
| Model/Shortnames | include/errstrshort.h, include/m_errno.h, src/process/signames.h | strings as values |
| Model/Layout | headers/common/bits/stat.h, bits/ioctl.h (macros, winsize), bits/alltypes.h (sizes of types), dirent.h, time.h, sys/socket.h, headers/linux_x64/sys/{signal,times,utsname,prctl}.h, bits/inotify.h, resource.h, seccomp.h (structures), include/{termio,poll,epoll,network,globaldefs,dirent}.h (structures) | types replaced by their sizes; the layout algorithm is the compiler's; enumerated constants of these headers not modelled |
| Model/Ccomments | tools/removeccomments.c | the array is a function with a bounds check; `puts` and `putchar` write everything; the debug output is compiled out |
| Model/Constants | headers/**, include/filemodes.h, network.h, globaldefs.h, poll.h, epoll.h | object-like macros whose names the kernel's headers have too; expressions evaluated beforehand (x86-64); bounds that move with the kernel (PF_MAX, SOMAXCONN, …), SHT_HIUSER, SHT_NUM, EI_PAD and the seccomp ioctls left out |
| Model/Jmp | asm/jmp-x64.c | instructions transcribed one by one; the machine has the general registers, the zero flag and memory; `.globl`, alignment, signal mask, MXCSR and x87 control word are not modelled (the code does not save them) |
| Model/Getchar | include/fgetc.h | standard input is a reading descriptor of its own |
| Model/Colors | include/ansicolors.h | the macros as a table; the even shorter names with SHRTSHORTCOLORNAMES (cG is defined twice) left out |
| Model/Pack | headers/common/elf.h, include/network.h, headers/linux_x64/sys/ttydefaults.h (packing macros) | the tags of processors (DT_MIPS_…) left out; DT_PROCNUM, ETHER_MIN_LEN and ETHER_MAX_LEN use names defined nowhere and cannot be used by a program |
| Model/Switches | minilib.h:110-4274 (dependency groups), the //+depends tags and the calls in src and include, conditions of minilib.c | calls are those of the text of the functions, macros that expand to calls included; conditions inside of functions only where they guard a call; local switches that no group names (verbose_errstr …) count as given |
| Model/MatchExt2 | src/match/match_ext2.c | what is printed is recorded as events, not as text; the callbacks change nothing in memory; `count` is always 1 and left out |
| Model/Elftrunc | old/tools/elftrunc.c | read, write and rename of regular files do not fail; messages and the mode of the file are left out |
| Model/FileCursor.lean | include/mini_fstream.h:108-163 over a regular file, with fgetc.c, ungetc.c, fwrite and lseek.h | streams opened for appending and descriptors shared with others are not; the pieces one fwrite writes are put into the file at once |
| Model/Stripundefs.lean | scripts/stripundefs.pl | all of it; reading and printing of lines by Perl is taken as given; the specification does not treat comments and continued lines |
| Model/Template.lean | scripts/template.pl, scripts/template.pm | names of places without characters special in patterns; messages, exit code and the temporary file are left out |
| Model/Combine.lean | scripts/combinesources.pl | what open finds under a name is a parameter; messages are left out; of patterns only . is treated; a last line without newline is taken as a line |
| Model/Genconf.lean | minimake:1003-1006, minilib.genconf.h | sources without macros of their own, as tokens; one blank is printed behind each token; the order given by sort is left out; dirbufsize is no macro with arguments and left out |
| Model/Confsh.lean | scripts/genconfig.sh, minimake:855-873 | patterns (`*`) in lists, options of echo, and the shell's own syntax (quotes, conditions) are left out; lines come as words |
| Model/Convertasm.lean | scripts/convertasm.pl | the message on line 10 is left out; patterns as functions |
| Model/Ifdefs.lean | scripts/ifdefs.pl | the decimal notation of the numbers printed is left out |
| Model/Dependgen.lean | scripts/genheaders.pl:731-741, 797-803 | tags come as lists of names; the order of the hash is a parameter |
| Model/Docdep.lean | scripts/genheaders.pl:453-472 | tags come as lists of names; progress messages are left out |
| Model/Deftag.lean | scripts/genheaders.pl:286, 310-328 | the line behind the tag comes as it is; lines with DEF_syscall are left out |
| Model/Doctag.lean | scripts/genheaders.pl:286-288, 341-351, 525, 707 | only the text of the function; the other formats (asciidoc, api) are left out |
| Model/Guards.lean | scripts/genheaders.pl:225-229, 425, 438-448 | templates are left out, declarations and sources come as lists |
| Model/Docdef.lean | scripts/genheaders.pl:515-517 | the line only |
| Model/Sysdoc.lean | scripts/genheaders.pl:273-275, 506-508, 586-588 | `DEF_syscallret` (one use) left out |
| Model/Headerof.lean | scripts/genheaders.pl:253-430 (headers) | files come as lists of tags and definitions |
| Spec/Linux | none (the kernel's table of calls) | numbers and widths of the parameters, written from the kernel's sources |

Not modelled: the start code for OSX, signals as asynchronous events, threads, the build scripts other than those in the table above, the bundled
examples and tests.

## Simplifications that matter

* Kernel pages (C24) are a partial map from page numbers; a mapping request is answered by an arbitrary oracle.
* Shifts by more than the width and signed left shifts follow GCC on amd64 only where the model's comment says so;
  elsewhere they are undefined behaviour.
* Block headers of the allocator are added with wraparound (malloc.c:216 relies on it).
* `strtol`'s end pointer is returned as a value: `endp` must not alias the text.
* The local array of `itooct` is uninitialised in C; its contents are a parameter `junk` of the model.
* Comparison functions (qsort, bsearch) are pure functions of the bytes of the two elements.
* Memory given to `write` must be mapped; a kernel would answer EFAULT, the model says undefined.
* `a`, the position in a format, is unbounded in vsnprintf/fprintfs/snprintfs (an `int` in C).

## Outcome per property

Generated from MANIFEST.json by scripts/design.py.  `_refuted` theorems prove that the full
statement (a `def …_full` next to them) is false for the code, with a concrete witness.

* **C01** strlen and strnlen measure the string and never read past it: proved. strings shorter than 2^31 bytes (the code counts with int). Theorems: `C01_strlen`, `C01_strlen_null`, `C01_strnlen`, `C01_strnlen_min`.
* **C02** strcpy and stpcpy make an exact copy and write nothing else: proved. Theorems: `C02_strcpy`, `C02_stpcpy`, `C02_copy_meaning`.
* **C03** strcat and strncat append exactly, terminate, and write nothing else: proved. Theorems: `C03_strcat`, `C03_strcat_string`, `C03_strncat`, `C03_strncat_zero`.
* **C04** strncpy and stpncpy write exactly n bytes: the prefix of src, then NUL padding: partial. refuted as stated: strncpy/stpncpy read src[n] when the source fills the window; partial theorems assume that byte is readable, or a terminated source. Theorems: `C04_strncpy_refuted`, `C04_stpncpy_refuted`, `C04_strncpy_partial`, `C04_stpncpy_partial`, `C04_strncpy_string_partial`.
* **C05** Size-bounded copies stay inside the given size and terminate: partial. strlcpy proved; stplcpy writes its NUL at dest[size] when the source is at least size bytes long (refuted); exact behaviour of both cases proved. Theorems: `C05_strlcpy`, `C05_stplcpy_refuted`, `C05_stplcpy_partial`, `C05_stplcpy_long_partial`.
* **C06** strcmp/strncmp implement lexicographic order on unsigned bytes: proved. strings shorter than 2^31-1 bytes. Theorems: `C06_strcmp`, `C06_strcmp_reads`, `C06_strncmp`, `C06_strncmp_zero`, `C06_strcmp_order`.
* **C07** strcasecmp/strncasecmp compare modulo ASCII case: partial. refuted (length difference always gives 1, non-letters collide, strncasecmp returns 1 on equal prefixes and -1 for the limit 0); partial, on bytes 0x20-0x3f, letters, 0x60-0x7f: zero iff equal modulo case (strncasecmp: and ended within the limit), sign for equal lengths, and sign of the first difference for strings of any length. Theorems: `C07_strcasecmp_refuted`, `C07_strcasecmp_refuted_equal`, `C07_strncasecmp_refuted`, `C07_strcasecmp_partial`, `C07_strcasecmp_sign_partial`, `C07_strncasecmp_partial`, `C07_difference_partial`, `C07_strncasecmp_none_refuted`.
* **C08** strchr, strchrnul and strrchr find the first/last occurrence: partial. refuted for c outside -128..127 and for strrchr(s,0); proved for every char value. Theorems: `C08_strchr_refuted`, `C08_strrchr_refuted`, `C08_strchrnul_partial`, `C08_strchr_partial`, `C08_strrchr_partial`.
* **C09** strspn and strcspn return the length of the maximal accepting/rejecting prefix: partial. strcspn proved for both build variants; strspn refuted, exact result characterised. Theorems: `C09_strcspn`, `C09_strcspn_variants`, `C09_strspn_refuted`, `C09_strspn_overread`, `C09_strspn_partial`, `C09_strspn_ok_partial`.
* **C10** strpbrk finds the first byte of a set: partial. refuted: strpbrk returns s for every non-empty s; exact result proved. Theorems: `C10_strpbrk_computes_partial`, `C10_strpbrk_refuted`, `C10_strpbrk_partial`.
* **C11** strstr finds the first occurrence of a substring: partial. refuted for empty big with non-empty little (overread); proved otherwise. Theorems: `C11_strstr_refuted`, `C11_strstr_partial`.
* **C12** Repeated strtok_r/strtok calls enumerate exactly the maximal delimiter-free pieces: proved. Theorems: `C12_strtok`.
* **C13** strdup and strndup return an independent copy that fits its allocation: partial. refuted: strdup allocates no room for the NUL (it overwrites the neighbour's header when strlen is a multiple of 4), strndup copies one byte too many when it truncates. Partial: strlen not a multiple of 4 / string not longer than n. Theorems: `C13_strdup_partial`, `C13_strndup_partial`, `C13_strdup_refuted`, `C13_strdup_overrun_refuted`, `C13_strndup_refuted`.
* **C14** memcpy and memset write exactly the requested range: proved. both build variants of memcpy; sizes up to INT_MAX. Theorems: `C14_memcpy`, `C14_memcpy_optimized`, `C14_memset`, `C14_nonpositive`.
* **C15** memmove copies correctly also when the ranges overlap: partial. refuted: moving up into an overlapping region smears; proved for dest <= src and for disjoint regions. Theorems: `C15_memmove_refuted`, `C15_memmove_partial`.
* **C16** memcmp and memchr: partial. refuted: memchr(s,-1,n) does not convert c to unsigned char; memcmp(p,q,0) is -1 and bytes compare as signed char. Proved: memchr for c in 0..255, exact memcmp result for n >= 1. Theorems: `C16_memchr_refuted`, `C16_memchr_found_partial`, `C16_memchr_absent_partial`, `C16_memcmp_refuted`, `C16_memcmp_refuted_sign`, `C16_memcmp_partial`.
* **C17** malloc hands out aligned, in-bounds, pairwise disjoint blocks in every history: proved. request sizes 1..INT_MAX-7. Theorems: `C17_history`, `C17_fresh`.
* **C18** malloc and free never modify the contents of live blocks: proved. request sizes 1..INT_MAX-7. Theorems: `C18_history`, `C18_malloc`, `C18_free`, `C18_free_null`.
* **C19** Freeing everything gives the whole arena back: proved. request sizes 1..INT_MAX-7. Theorems: `C19_all_freed`, `C19_any_order`.
* **C20** A failed malloc has no effect: partial. refuted for the seven largest int sizes (signed overflow); proved for all other sizes. Theorems: `C20_malloc_refuted`, `C20_malloc_partial`.
* **C21** malloc(0) and hostile sizes are safe: partial. refuted: malloc(negative) succeeds and returns a pointer into a live block; a block from malloc(0) freed out of order is lost. Partial: malloc(0) freed at once is harmless. Theorems: `C21_negative_refuted`, `C21_zero_refuted`, `C21_zero_partial`.
* **C22** calloc returns nmemb*size zero bytes: partial. refuted: only the first size bytes are cleared. Partial: exact behaviour; all zero for nmemb = 1. Theorems: `C22_calloc_partial`, `C22_calloc_one_partial`, `C22_calloc_refuted`.
* **C23** realloc preserves the contents and fits the new block: partial. refuted in four ways: copies only about half of the old block; frees it when memory runs out; copies through NULL when the room counted is that of the old block; copies more than the new block holds when a block shrinks to between a quarter and a half, over the neighbour. Partial: old blocks of at most 8 bytes, moves whose copied part covers and fits, and shrinking below a quarter. Theorems: `C23_realloc_partial`, `C23_realloc_small_partial`, `C23_realloc_shrink_partial`, `C23_realloc_refuted`, `C23_realloc_oom_refuted`, `C23_realloc_null_refuted`, `C23_realloc_overflow_refuted`, `C23_realloc_from_null`, `C23_realloc_to_zero`.
* **C24** map_protected/unmap_protected: guarded mapping of at least len bytes: partial. refuted when the kernel refuses the mapping (error pointer not detected, 4096 added); proved whenever the mapping is granted; unmap proved. Theorems: `C24_map_partial`, `C24_unmap`, `C24_map_refuted`.
* **C25** Decimal conversion of int prints the right digits: partial. refuted for 0 with a width (only padding is printed), widths above 10 and INT_MIN; proved for all other values with widths up to 9 and, without width, for all values but INT_MIN, with digit grouping. Theorems: `C25_uitodec_partial`, `C25_group_partial`, `C25_uitodec_refuted`, `C25_width_ten_partial`, `C25_width_ten_refuted`, `C25_wide_refuted`, `C25_itodec_partial`, `C25_itodec_width_partial`, `C25_itodec_min_refuted`.
* **C26** Decimal conversion of long prints the right digits: partial. refuted for 0 with precision 0 (empty text), LONG_MIN (overflow) and the digit separator in front of numbers of 3, 6, ... digits (leading separator); proved for all other 64 bit values and precisions up to 20, and the groups of all other numbers. Theorems: `C26_ultodec_partial`, `C26_ultodec_refuted`, `C26_group_partial`, `C26_group_refuted`, `C26_ltodec_partial`, `C26_ltodec_min_refuted`.
* **C27** Hexadecimal, binary and octal conversion print the right digits: partial. hex proved for paddings up to 8 and refuted above; itobin appends a blank (refuted), digits proved for every group size; itooct emits one indeterminate byte first (refuted), the following digits proved. Theorems: `C27_itobin_groups_partial`, `C27_itohex_partial`, `C27_itoHEX_partial`, `C27_itohex_refuted`, `C27_itobin_nogroup_partial`, `C27_itobin_partial`, `C27_itobin_refuted`, `C27_itooct_partial`, `C27_itooct_refuted`.
* **C28** atoi/atol parse what the decimal printers print: partial. atoi refuted for trailing text and INT_MIN, atol refuted for LONG_MIN; proved for all other values, incl. the round trips with itodec/ltodec. Theorems: `C28_atoi_partial`, `C28_atoi_itodec_partial`, `C28_atoi_refuted`, `C28_atoi_min_refuted`, `C28_atol_partial`, `C28_atol_ltodec_partial`, `C28_atol_refuted`.
* **C29** strtol/strtoimax parse an integer in any base and report the end: partial. refuted: the digit equal to the base is accepted, overflow is undefined, '+' not accepted; proved for all bases, white space, minus sign, base deduction when the value fits. Theorems: `C29_strtol_partial`, `C29_strtoimax_partial`, `C29_base0_hex_partial`, `C29_base0_oct_partial`, `C29_base0_dec_partial`, `C29_strtol_refuted`, `C29_overflow_refuted`.
* **C30** Byte order conversion: proved. Theorems: `C30_htonl`, `C30_htonl_network_order`, `C30_ntohl_htonl`, `C30_htons`, `C30_ntohs_htons`.
* **C31** IPv4 text conversion round-trips: proved. Theorems: `C31_inet_ntoa`, `C31_inet_aton`, `C31_round_trip`, `C31_inet_aton_total`.
* **C32** qsort sorts: proved. Theorems: `C32_qsort`, `C32_qsort_any_comparison`.
* **C33** bsearch finds an element iff one is present: proved. Theorems: `C33_bsearch`, `C33_bsearch_sorted`, `C33_search_after_sort`.
* **C34** Hash functions and checksums are incremental folds: proved. Theorems: `C34_djb2_hash`, `C34_sdbm_hash`, `C34_hash_position_independent`, `C34_djb_cksum`, `C34_bsd_chaining`.
* **C35** Integer power: partial. ipoweriui is exact for every base and exponent: x^n when it fits an int, undefined behaviour otherwise. ipoweri converts a negative exponent to unsigned: refuted with a witness; _partial covers exponents >= 0. Theorems: `C35_ipoweriui`, `C35_ipoweri_partial`, `C35_ipoweri_refuted`.
* **C36** rand never gets stuck and every seed is usable: partial. Refuted: three states are fixed points of the generator (srand(0x4e260138) makes rand return one value forever), and the update is not injective. C36_stuck_states_partial shows these are the only stuck states; zero is left after one call. Theorems: `C36_rand_stuck`, `C36_rand_refuted`, `C36_rand_zero_state_refuted`, `C36_stuck_states_partial`, `C36_collisions_partial`, `C36_same_sequence`, `C36_seeds_partial`, `C36_seed_zero`, `C36_zero_recovers`.
* **C37** snprintf/vsnprintf never write outside the buffer: partial. Proved for every list of format items (literals, %% d u ld lu x X o b s c f with any modifiers, widths and group sizes in parentheses), every size >= 1 and all arguments except those named in SafeItem: nothing outside buf[0..size) is written; a single %f also with up to 13 decimals (C37_double_partial). Refuted: padding of %Ns is not checked, %'d of a negative ten digit number takes 15 bytes where 14 were checked, %d of INT_MIN overflows, %b of a number with the top bit set takes 34 bytes where 33 were checked, %99f writes its NUL far behind the text without a check, %f of a number beyond the ints is undefined, a format ending in a lone % is read beyond its end. Theorems: `C37_vsnprintf_partial`, `C37_strpad_refuted`, `C37_group_refuted`, `C37_min_refuted`, `C37_bin_refuted`, `C37_lone_percent_refuted`, `C37_double_partial`, `C37_double_wide_refuted`, `C37_double_large_refuted`.
* **C38** printf output is the rendering of the format: partial. Proved for every list of good items (see Conv.Good): exact text, NUL and length; the exact bytes of a single %f with up to nine decimals (C38_double_partial), whose string is the whole part only (C38_double_cut). Good are also widths that the number fills by itself, the width 10 with blanks, and %'ld of numbers whose number of digits is no multiple of three. Refuted: %u of 0 prints a blank, %5d of -42 takes six characters, %12u is not padded at all, %'lu of 123 begins with the separator, %5x pads with zeros, %5c ignores the width, %b prints a blank at the end and %(8)b puts its groups in the wrong places, %f leaves a NUL in front of the dot, has nine decimals by default and takes the width for the number of decimals. Missing: those conversions, %o (prints an indeterminate character first, see C27). Theorems: `C38_vsnprintf_partial`, `C38_vsnprintf_any_size_partial`, `C38_zero_refuted`, `C38_negative_refuted`, `C38_wide_refuted`, `C38_group_refuted`, `C38_hex_refuted`, `C38_bin_refuted`, `C38_bingroup_refuted`, `C38_char_refuted`, `C38_double_partial`, `C38_double_cut`, `C38_double_nul_refuted`, `C38_double_decimals_refuted`, `C38_double_width_refuted`.
* **C39** snprintfs stays in its buffer and concatenates its arguments: partial. Exact for every text shorter than the buffer, and for longer texts with one byte behind the buffer; refuted: a text that fills the buffer puts the NUL at buf[size]; a format ending in '%' is read past its NUL. Theorems: `C39_snprintfs_partial`, `C39_snprintfs_cut_partial`, `C39_refuted`, `C39_format_refuted`.
* **C40** Formatted output to a descriptor does not disturb allocated memory: partial. Every allocation history, every safe format (SafeItem, as in C37), fitting or not; padded strings when 27 bytes (31 with %b) are to spare. Refuted for a padded string that does not fit, and for vfprintf, a macro for fprintf, when it is given a va_list as the standard says. Theorems: `C40_dprintf_partial`, `C40_fprintf_partial`, `C40_va_list_refuted`, `C40_text_partial`, `C40_refuted`.
* **C41** fgets returns a NUL-terminated line prefix and respects the size: partial. Exact characterisation of fgets, fgetsn and fgetsp for every stream, every chunking of reads and every pattern of read errors. fgetsp is proved to stay within its buffer. fgets and fgetsn are refuted: a line of size bytes or more puts the NUL at buf[size], and an error within a line is not reported; the partial theorems are for shorter lines, or for a buffer with one byte more; the loop theorems say that consecutive calls deliver the whole stream, after errors a prefix of it (data without NUL bytes, which end a line and are lost). Theorems: `C41_errors_partial`, `C41_loop_errors_partial`, `C41_report_refuted`, `C41_fgetsp_errors`, `C41_fgets_partial`, `C41_fgets_long_partial`, `C41_refuted`, `C41_loop_partial`, `C41_fgetsp`.
* **C42** fgetc/ungetc deliver the stream byte by byte: partial. Refuted in four ways: end of file is reported as 0, a byte from 128 on comes back negative after ungetc, ungetc of a NUL is lost, and getchar reads through NULL when ungetc is compiled in. Proved for every interleaving of fgetc and ungetc of the bytes 1 to 127 with 0 as the end, and for getchar without ungetc. Theorems: `C42_getchar_partial`, `C42_getchar_refuted`, `C42_ops_partial`, `C42_unget_high_partial`, `C42_eof_refuted`, `C42_unget_refuted`, `C42_unget_nul_refuted`.
* **C43** Every open stream has its own slot; a closed stream's slot is reusable: partial. Refuted: a slot still open is handed out after certain orders of closing; with 16 slots in use fopen and fclose read behind the table; ungetc of a byte from 128 on makes a slot look free. Proved for the histories in which a stream is closed while it is the highest one open or its successor is open, the last slot was not handed out when closing, the standard streams stay open and at most 16 streams are opened. Theorems: `C43_reuse_refuted`, `C43_overrun_refuted`, `C43_close_refuted`, `C43_unget_refuted`, `C43_orderly_partial`.
* **C44** fread/fwrite transfer everything in spite of short reads and writes: partial. Refuted: the transfer ends at the first short answer of the kernel, and fread ignores a character pushed back. Proved: the exact outcome for every kernel, and complete transfers for kernels that do not answer short. Theorems: `C44_fread_partial`, `C44_fread_regular_partial`, `C44_fread_refuted`, `C44_fread_push_refuted`, `C44_fwrite_partial`, `C44_fwrite_all_partial`, `C44_fwrite_refuted`.
* **C45** getenv returns the value of exactly the named variable: partial. Refuted: the comparison runs on behind the NUL when an entry without '=' equals the name. Proved: the first variable with exactly this name, for environments whose entries have a '='. Theorems: `C45_getenv_partial`, `C45_refuted`, `C45_getenv_value`.
* **C46** setenv/putenv/unsetenv update exactly the named variable: partial. Refuted: an entry is chosen by a common beginning (putenv, setenv: of a longer name, unsetenv: of a shorter one), the new entry may go past the array the kernel supplied, setenv asks malloc for one byte too few, and a failed malloc in setenv drops the variables behind. Proved without these situations: exact effect of each call, and of every history of calls on getenv. Theorems: `C46_putenv_partial`, `C46_putenv_error`, `C46_putenv_refuted`, `C46_putenv_array_refuted`, `C46_unsetenv_partial`, `C46_unsetenv_refuted`, `C46_setenv_partial`, `C46_setenv_refuted`, `C46_nomem_refuted`, `C46_history_partial`.
* **C47** atexit handlers run in reverse order, each exactly once: partial. Refuted: with ATEXIT_MAX handlers the startup code looks one cell behind the table and, when the program's appdata pointer there is not NULL, calls it. Proved: answers of every registration, and the calls in reverse order for tables that are not full or when appdata is NULL. Theorems: `C47_partial`, `C47_order_partial`, `C47_appdata`, `C47_refuted`.
* **C48** Signal set operations act on one signal: partial. _NSIG is 32 in this library, so only signals 1..30 work (proved exactly); 31..64 are refused and 0 is an undefined shift. Refuted for 1..64. Theorems: `C48_sigset_partial`, `C48_sigemptyset`, `C48_sigfillset_partial`, `C48_sigset_refuted`, `C48_out_of_range`, `C48_zero_ub`.
* **C49** FD_SET/FD_CLR/FD_ISSET act on one descriptor: proved. Theorems: `C49_FD_SET`, `C49_FD_CLR`, `C49_FD_ISSET`, `C49_FD_ZERO`, `C49_history`.
* **C50** wait status macros partition the status: partial. All macros exact for killed/stopped children and exit codes < 128; WIFSTOPPED overflows int (undefined) on exit codes >= 128 and on the continued status, which refutes the full statement. The other macros are exact for every event (C50_wait_others). Theorems: `C50_wait_partial`, `C50_wait_others`, `C50_wait_refuted`.
* **C51** Alignment macros round up to the next multiple: partial. ALIGN_n proved for every power of two. ALIGN_P shifts by 8 instead of 3: refuted; _partial gives the values for which it is right. Theorems: `C51_ALIGN`, `C51_ALIGN_P_refuted`, `C51_ALIGN_P_partial`.
* **C52** match: text matches pattern according to the documented wildcard rules: partial. Safety and termination hold for every text and pattern (C52_safe). Soundness is proved for patterns without negated classes and texts without the characters for which classes and '$' are wrong; exactness for patterns where something behind a '*', '+', '%', '#' or '$' takes a character and no '+' or '%' is at the end. Refuted: '+' at the end of the text, negated classes, ']' in a class, '$' as a literal, '%#*' at the end of the text. Theorems: `C52_safe`, `C52_sound_partial`, `C52_partial`, `C52_extract_partial`, `C52_plus_refuted`, `C52_refuted`, `C52_negated_refuted`, `C52_negated_example`, `C52_bracket_refuted`, `C52_dollar_refuted`, `C52_gap_refuted`.
* **C53** basename and dirname decompose a path: partial. dirname: proved for every path. basename refuted: a path of one component followed by a slash gives '/', and of three and more slashes at the end some stay. Proved for all other paths. Theorems: `C53_dirname`, `C53_null`, `C53_basename_partial`, `C53_basename_refuted`, `C53_basename_slashes_refuted`.
* **C54** readdir delivers every directory entry once, in order: partial. readdir proved for every split of the directory by the kernel, with or without failures. Refuted: telldir on a new stream reads an uninitialised field, seekdir keeps only 32 bits of the position for telldir, errno is always EPERM after a failure. Proved for all sequences of calls with positions below 2^31 after a first rewinddir. Theorems: `C54_readdir`, `C54_seek_partial`, `C54_error`, `C54_errno_refuted`, `C54_tell_refuted`, `C54_seek_refuted`.
* **C55** Password and group files are parsed field by field: partial. Proved over every history of calls for files of well-formed lines (numbers up to INT_MAX, newline at the end, at most 63 members), for groups with enough zero bytes behind the file, for names under the condition pwSafe. Refuted: the second lookup of a missing user name dereferences NULL; after endpwent an old entry is read in unmapped memory; numbers above INT_MAX overflow; a group without members gets one empty member; a group file whose size is a multiple of the page size is read behind the mapping; the last member of a file without final newline is not terminated; getusergroups fails when the list fits exactly, and getgrouplist then writes before the list. At an empty line both getpwent and getgrent answer that there are no more entries (C55_emptyuser_refuted, C55_emptyline_refuted). Theorems: `C55_group_partial`, `C55_group_plain`, `C55_usergroups_partial`, `C55_grouplist_partial`, `C55_exact_refuted`, `C55_grouplist_refuted`, `C55_nomembers_refuted`, `C55_page_refuted`, `C55_emptyline_refuted`, `C55_newline_refuted`, `C55_passwd_partial`, `C55_plain`, `C55_nam_refuted`, `C55_number_refuted`, `C55_emptyuser_refuted`, `C55_stale_refuted`.
* **C56** getopt/regetopt reports each option once, in order: partial. Proved for contrib/getopt: exact options, arguments and operand index up to the first error. Refuted: an unknown option or a missing argument is reported for ever; a colon in a cluster is taken for an option. Theorems: `C56_getopt_partial`, `C56_getopt_stuck`, `C56_ends_refuted`, `C56_colon_refuted`.
* **C57** PATH search tries every directory in order: partial. Proved for a PATH without empty elements and a buffer which is large enough. Refuted: an empty element (where reads behind the end of PATH), an element longer than the buffer (written behind its end), and a name with a slash in the middle (it is searched in PATH). Theorems: `C57_where_partial`, `C57_empty_refuted`, `C57_refuted`, `C57_overflow_refuted`, `C57_execvpe_partial`, `C57_execvpe_refuted`.
* **C58** Character classification macros agree with ASCII: partial. Exact on every int for isalpha isalnum isdigit islower isupper isprint isgraph isascii isspace isblank isxdigit. iscntrl wrong for EOF, ispunct true for letters and digits, tolower/toupper wrong outside letters: refuted, with the exact extent proved. Theorems: `C58_ranges`, `C58_isalpha_isalnum`, `C58_isxdigit`, `C58_isspace_isblank`, `C58_iscntrl_partial`, `C58_iscntrl_refuted`, `C58_ispunct_partial`, `C58_ispunct_refuted`, `C58_tolower_partial`, `C58_toupper_partial`, `C58_tolower_refuted`, `C58_toupper_refuted`.
* **C59** strerror/perror name the error number: proved. Theorems: `C59_strerror_bounds`, `C59_strerror`, `C59_strerror_injective`.
* **C60** The sorting templates of ksort.h and qsort.h sort: proved. Theorems: `C60_mergesort`, `C60_heapmake`, `C60_heapadjust`, `C60_heapsort`, `C60_heapsort_alone`, `C60_insertsort`, `C60_insertsort_part`, `C60_combsort`, `C60_introsort`, `C60_qsort`, `C60_ksmall`, `C60_shuffle`.
* **C61** inet_aton rejects what is not an address: partial. inet_aton returns 1 for every text: refuted. _partial: well-formed addresses are accepted with the right value. Theorems: `C61_inet_aton_refuted`, `C61_inet_aton_partial`.
* **C62** ether_ntoa prints the hardware address: partial. The two hexadecimal digits of every octet are exchanged: refuted. _partial gives the exact text written and its bounds, and the addresses (octets with equal digits) for which it is right. Theorems: `C62_ether_ntoa_partial`, `C62_ether_ntoa_doubled_partial`, `C62_ether_ntoa_refuted`.
* **C63** gethostname stays inside the caller's buffer: proved. Theorems: `C63_gethostname`.
* **C64** errno_str prints the error number: proved. Theorems: `C64_errno_str`.
* **C65** The compact and the plain table of error texts agree: partial. Exact for every number except 0, where the first character of the text is missing (refuted). Theorems: `C65_errstr2_partial`, `C65_errstr2_refuted`.
* **C66** bsd_cksum is the BSD checksum: partial. char is signed: bytes above 127 are added as negative numbers. Refuted; _partial: equals the BSD checksum on 7 bit data. C34 covers chaining for all data. Theorems: `C66_bsd_cksum_partial`, `C66_bsd_cksum_refuted`.
* **C67** div, ldiv, abs, labs: proved. Theorems: `C67_div`, `C67_ldiv`, `C67_abs`, `C67_labs`.
* **C68** dprints, fputs and fprintfs deliver their text to their descriptor: partial. Exact sequence of offers for every kernel. Refuted for kernels that take parts: the rest of a piece is dropped and the next one follows. Theorems: `C68_fputs`, `C68_dprints`, `C68_dprints_all`, `C68_fprintfs`, `C68_fprintfs_all`, `C68_selection`, `C68_short_refuted`.
* **C69** Stream flags: end of file, error, and the descriptor: partial. Refuted: feof and ferror test the same two bits; seeking to position 0 (rewind) does not clear the flags; clearerr discards a character pushed back. Everything else is proved. Theorems: `C69_fileno`, `C69_feof_refuted`, `C69_fseek_refuted`, `C69_clearerr_refuted`, `C69_flags_partial`.
* **C70** fopen translates the mode to the flags of open: partial. Refuted for modes starting with a: O_CREAT is missing (and the file is opened for reading and writing). Proved for all other modes of up to six characters. Theorems: `C70_mode_partial`, `C70_append_partial`, `C70_refuted`.
* **C71** fgetud and fgetul read the decimal number at the front of a stream: proved. Theorems: `C71_fgetnum`.
* **C72** execl passes exactly its arguments: proved. Theorems: `C72_execl`.
* **C73** system and vexec return the outcome of the child: partial. Proved for a child which exits (system: when waitpid is not interrupted). Refuted: system never returns when the child is killed by a signal and uses an uninitialised status when the first waitpid is interrupted; vexec returns 0 for a killed child. Theorems: `C73_system_partial`, `C73_system_hangs_refuted`, `C73_system_refuted`, `C73_system_eintr_refuted`, `C73_vexec_partial`, `C73_vexec_refuted`.
* **C74** ks_sample draws a sample inside the array: partial. Refuted outright: for every sample smaller than the array the last round (i = 0) runs into 0/0 and exchanges with the element behind the array. Nothing positive can be proved. Theorems: `C74_sample_never`, `C74_sample_refuted`.
* **C75** malloc_brk hands out disjoint blocks on the data segment and gives them back: partial. The history theorems cover every sequence of calls with requests of 1 to 268435448 bytes, granted by the kernel, and realloc of the block that ends at the break. Refuted: brk returns 0 and malloc_brk a pointer although the kernel refused (the answer of brk(2) is tested as if it were an error number); a block of malloc_brk(0) is given back together with its neighbour, a later free then writes into another block; blocks of 2^28 bytes are never given back; realloc of an inner block copies twice the old size into the arena and overwrites the block behind the new one. Theorems: `C75_history_partial`, `C75_contents_partial`, `C75_frame_partial`, `C75_giveback`, `C75_refused_refuted`, `C75_brk_refuted`, `C75_zero_refuted`, `C75_large_refuted`, `C75_inner_refuted`, `C75_arena_free`, `C75_arena_realloc_partial`.
* **C76** scandir lists exactly the selected entries, sorted: partial. The listing theorem covers every directory (in total up to 268 MB) that the kernel delivers without error while the data segment may grow. Refuted: errors of open return -1 with errno 1 whatever the error was (seterrno is called with the -1 and overwrites errno). A refusing kernel is not covered (brk does not notice the refusal, C75; the result of the last realloc is ignored). Theorems: `C76_scandir_partial`, `C76_alphasort`, `C76_error_refuted`.
* **C77** match_ext finds what the pattern describes and reports it: partial. Reports are proved for patterns with classes, '*', '+', '%' with and without numbers, '#', '$' and ',' (texts up to 2 GB; same limits on negated sets, ']' and '$' in the text as C52), exactness without ',' for patterns of C52's form; counts of one digit and '&' only in front of a pattern. Refuted: {3a} does not accept aaa, two-digit counts are misread (10 means 11), {2?} runs past the end of the text and '{' past the end of the pattern, '&' moves on by one character more than the callback says (undefined on the last character; the documented x&x example fails), the number of a '&' is kept for the next one, a ',' is not skipped at the end of the text. Theorems: `C77_agree`, `C77_sound_partial`, `C77_exact_partial`, `C77_count_partial`, `C77_count_refuted`, `C77_digits_refuted`, `C77_overrun_refuted`, `C77_brace_refuted`, `C77_char_partial`, `C77_char_refuted`, `C77_example_refuted`, `C77_kept_refuted`, `C77_separator_refuted`.
* **C78** getopt_long reports the options, short and long, of every argument vector: partial. Proved when no name in the table of long options stands behind two names it abbreviates and the scan ends neither at a ':' given as an option nor at a value for an option that takes none. Refuted: operands in front of a '--' come out behind those that follow it; a missing argument of a short option is answered ':' whatever the option string starts with, one of a long option always '?'; an unknown long option prints its message although opterr is 0; an exact name behind two longer ones is called ambiguous; a value for an option without argument is silently accepted; '-:' is answered as an option; after an error every further call repeats the same answer; the number of arguments of the first scan is kept for all later vectors. Theorems: `C78_scan_partial`, `C78_answers_partial`, `C78_stuck_refuted`, `C78_order_refuted`, `C78_missing_refuted`, `C78_silent_refuted`, `C78_scan_refuted`, `C78_value_refuted`, `C78_exact_refuted`, `C78_colon_refuted`, `C78_again_refuted`.
* **C79** endian.h converts to and from big-endian: partial. Proved for the swaps, and for all conversions when __BYTE_ORDER is defined as 1234. Refuted as the header stands: no header of the library defines __BYTE_ORDER, an undefined identifier counts as 0 in #if, and the conversions for a big-endian machine are chosen: htobe32 leaves the number as it is, htole32 reverses its bytes. Theorems: `C79_bswap`, `C79_involution`, `C79_endian_partial`, `C79_endian_refuted`, `C79_reversed_refuted`, `C79_agrees`.
* **C80** Times are added, subtracted and compared exactly; sleep and usleep sleep for the time asked for: partial. Arithmetic proved when the seconds do not overflow before or after the carry. Refuted: with a borrow the difference can overflow on the way although the result is representable; sleep answers 0 when interrupted less than half a second before the end. Theorems: `C80_add`, `C80_sub`, `C80_add_sub`, `C80_cmp`, `C80_clear_isset`, `C80_defined_refuted`, `C80_usleep`, `C80_sleep_partial`, `C80_sleep_refuted`.
* **C81** System calls hand on what the kernel answers: partial. Proved for answers up to INT_MAX, lseek forwards and ftruncate below 2^32. Refuted: the answer is cut to an int, so positions behind 2 GB are reported as errors (undefined at exactly 2^31) or modulo 2^32; lseek's offset is a 32 bit asm operand, so with a cleared upper half a negative offset moves 4 GB forward while the answer is the position asked for; ftruncate to a multiple of 2^32 empties the file; mprotect answers the first word of the region, and reads the region after PROT_NONE. Refused positions and unknown origins give EINVAL and leave the file where it is (C81_lseek_einval). Theorems: `C81_wrapper_partial`, `C81_large_refuted`, `C81_wrapper_refuted`, `C81_lseek_partial`, `C81_lseek_einval`, `C81_lseek_back_refuted`, `C81_lseek_far_refuted`, `C81_lseek_refuted`, `C81_ftruncate_partial`, `C81_ftruncate_refuted`, `C81_mprotect_value_refuted`, `C81_mprotect_none_refuted`, `C81_mprotect_partial`.
* **C82** Signal actions, abnormal ends and error reports: partial. Refuted: sigaction with NULL for the new action reads through NULL; with SIGABRT blocked abort is exit(125); exit_errno writes NULs behind its texts and behind numbers below 100 (the line itself is right), ends with status 0 for multiples of 256 and has no absolute value for INT_MIN; perror writes neither separator nor newline; open answers the negative error number even with errno. Theorems: `C82_sigaction_partial`, `C82_sigaction_null_refuted`, `C82_signal`, `C82_signal_history`, `C82_abort_partial`, `C82_abort_refuted`, `C82_exit_errno_partial`, `C82_exit_errno_exec`, `C82_exit_nul_refuted`, `C82_exit_errno_refuted`, `C82_exit_status_refuted`, `C82_exit_min_refuted`, `C82_perror_refuted`, `C82_perror_partial`, `C82_open_partial`, `C82_open_refuted`.
* **C83** PARSEOPTS_short finds the options and the first regular argument: partial. Refuted: an allowed b is reported as unrecognized, since the loop variable b hides the constant (C83_b_refuted); characters below a, as in -A or --help, shift by a negative number (C83_shift_refuted, C83_defined_refuted); the result is the index behind the last word with a dash (C83_regular_refuted). Proved otherwise for every vector of letter options and every set of allowed letters without b. Theorems: `C83_parse_partial`, `C83_regular_partial`, `C83_setopt`, `C83_b_refuted`, `C83_shift_refuted`, `C83_defined_refuted`, `C83_regular_refuted`.
* **C84** kmalloc hands out disjoint aligned blocks, reuses freed ones and survives double frees: partial. Missing: kernels that refuse memory (a pointer to unmapped memory is returned instead of NULL, refuted), negative sizes (answered with a block of no bytes, refuted), kmalloc_usable_size (answers the class number, refuted), krealloc that fails (frees the block, refuted), kcalloc of more than 2^30+4088 bytes (clears memory at NULL, refuted); krealloc of blocks already freed; other users of sbrk in between. Theorems: `C84_history_partial`, `C84_answers_partial`, `C84_realloc_partial`, `C84_again`, `C84_reuse`, `C84_kcalloc_partial`, `C84_negative_refuted`, `C84_refused_refuted`, `C84_usable_partial`, `C84_usable_refuted`, `C84_fail_refuted`, `C84_kcalloc_refuted`.
* **C85** Terminal settings are read, changed and written back: partial. Missing: the definitions that are compiled use the 18 byte struct termio of the kernel with the struct termios of the headers, so that raw mode is never set (refuted for every terminal) and c_lflag is read from other fields (refuted); an opt other than the three reads into the const struct (refuted). The settings are proved for the definitions in include/. Theorems: `C85_cfmakeraw`, `C85_settings_partial`, `C85_isatty`, `C85_restore`, `C85_raw_refuted`, `C85_get_refuted`, `C85_const_refuted`, `C85_pgrp`, `C85_pgrp_none`.
* **C86** sprintf and vsprintf write exactly the text; names of pseudo terminals: partial. Missing: texts from mini_buf - 28 bytes on (refuted from mini_buf on: SIGSEGV is raised), vsprintf with a va_list (refuted: it is declared variadic), ptsname_r with a short buffer or none (refuted: it writes beyond it), the mode set by grantpt (refuted: what the master grants to others is granted on the slave). The conversions are the good ones of C38. Theorems: `C86_sprintf_partial`, `C86_vsprintf_partial`, `C86_long_refuted`, `C86_va_list_refuted`, `C86_ptsname_r_partial`, `C86_overrun_refuted`, `C86_null_refuted`, `C86_ptsname`, `C86_grantpt_refuted`.
* **C87** term_width answers the number of columns: partial. Missing: numbers from 2147483600 on (refuted: signed overflow), text that is no number (refuted: COLUMNS=x gives 72), the empty text (gives 0). An entry COLUMNS without '=' is excluded, as in C45. Theorems: `C87_width_partial`, `C87_overflow_refuted`, `C87_text_refuted`.
* **C88** The print macros and fputc deliver exactly their text: partial. Missing: the order in which puts writes text and newline and errors it hides (refuted), what fputc answers after errors and for values that are no bytes (refuted), writes and its variants write the NUL of the literal, too (refuted). Theorems: `C88_prints`, `C88_printsl`, `C88_print`, `C88_puts_partial`, `C88_puts_refuted`, `C88_fputc_partial`, `C88_fputc_refuted`, `C88_writes_refuted`.
* **C89** stripblanks and stripblanklines filter exactly the blanks: partial. Proved for texts without NUL whose lines have at most 1023 bytes. Refuted for the others: a longer line overruns the buffer (always), a line starting with NUL ends the filters. Theorems: `C89_stripblanks_partial`, `C89_stripblanklines_partial`, `C89_long_refuted`, `C89_nul_refuted`.
* **C90** shrinkelf keeps the program and nothing else: partial. Proved for files below 2 GB. Refuted: a segment behind 2 GB (lseek of the library answers an error); the name of the temporary file is written three bytes beyond the memory asked for, beyond the block for three of four lengths. ELF files whose program headers overlap the ELF header are excluded. Theorems: `C90_shrink_partial`, `C90_files`, `C90_far_refuted`, `C90_tmpname_refuted`.
* **C91** The groups of the process: partial. getgroups does not ask the kernel but reads the files (C91_getgroups_refuted), answers -1 for a list without a spare cell (C91_count_refuted); initgroups leaves out the given group (C91_given_refuted) and changes the group of the process (C91_gid_refuted). Proved: what the calls do over all histories (C91_groups_partial, C91_unprivileged). Theorems: `C91_groups_partial`, `C91_unprivileged`, `C91_getgroups_refuted`, `C91_count_refuted`, `C91_given_refuted`, `C91_gid_refuted`.
* **C92** Decimal text of doubles: partial. Proved: the exact bytes and the answer for every finite double whose whole part is an int, the billionths up to an error of 0.101, and exact if the number has at most nine decimals. Missing because the code violates it: a NUL is left in front of the dot for all positive numbers and up to -1, so the string ends there (C92_cut, C92_nul_refuted); leading zeros of the decimals are blanks (C92_blank_refuted); 0 is written as -0. (C92_zero_refuted); numbers within 10^-10 of the next whole number get the decimals 1000000000 (C92_nines_refuted). Theorems: `C92_dtodec_partial`, `C92_exact`, `C92_cut`, `C92_nul_refuted`, `C92_blank_refuted`, `C92_zero_refuted`, `C92_nines_refuted`.
* **C93** Many directory streams at once: proved.  A descriptor that the program closed by itself is reported by closedir, the memory being released (C93_close_error). Theorems: `C93_streams`, `C93_state`, `C93_open`, `C93_closed`, `C93_dirfd`, `C93_close_error`.
* **C94** Streams and the descriptors behind them: partial. Refuted: freopen without a name closes the stream's descriptor and turns the stream into stdin; fdopen takes any number. Proved for the orderly histories of C43 (streams opened while a slot is free, and closed when they are the highest or followed by an open one, last slot not handed out), modes of up to six characters, with the flags of C70 for a. Theorems: `C94_calls_partial`, `C94_state_partial`, `C94_closed_partial`, `C94_freopen_partial`, `C94_null_refuted`, `C94_fdopen_refuted`.
* **C95** Messages that end the program: partial. The messages, the lines with the number and the statuses are as described, for every message, good format and number up to 199, up to NUL bytes: die writes the NUL of its literal behind the newline, and exit_errno NULs behind each of its pieces (C95_die_nul_refuted, C82_exit_nul_refuted). Fails: die, dief and dies with the number 0 report success (C95_die_success_refuted), and a status that is a multiple of 256 reports success (C95_status_refuted). Theorems: `C95_die_partial`, `C95_die_exec`, `C95_die_success_refuted`, `C95_die_nul_refuted`, `C95_die_refuted`, `C95_dies_partial`, `C95_die_errno_partial`, `C95_if`, `C95_dief_partial`, `C95_error_partial`, `C95_err_partial`, `C95_status_refuted`.
* **C96** The start of a program: partial. Proved for arbitrary previous contents of the globals: arguments, getenv, malloc, malloc_brk, standard streams, errno, atexit, the passwd functions, and streams closed in the reverse order. Refuted when the globals are on the stack: groupfile is never initialised (the switch mini_groupfile does not exist) and getgrent reads at an indeterminate address; endpwent unmaps an indeterminate number of pages from address 0 on; rand has an arbitrary state; fclose compares with uninitialised cells and a later fopen overwrites an open stream. Refuted always: putenv of a new variable overwrites the auxiliary vector; __start_c reads beyond a vector without AT_SYSINFO. Partial theorems for globals that are zero before: groups, rand. Refuted for 32 bits: compiled without a frame, main gets the address of the first argument as argc, the arguments behind it, and the environment without its first two words; with a frame the environment is right only for one argument. Refuted for 64 bits: the stack is never aligned at the call. Theorems: `C96_arguments`, `C96_x32_shifted`, `C96_x32_frame_partial`, `C96_x32_frame_refuted`, `C96_x32_refuted`, `C96_aligned_refuted`, `C96_getenv`, `C96_putenv_refuted`, `C96_malloc`, `C96_brk`, `C96_standard`, `C96_atexit`, `C96_passwd_partial`, `C96_streams_partial`, `C96_group_refuted`, `C96_group_partial`, `C96_endpwent_refuted`, `C96_streams_refuted`, `C96_rand_refuted`, `C96_rand_partial`, `C96_vsyscall_partial`, `C96_vsyscall_refuted`.
* **C97** Containers of the macros directory: partial. Refuted: push answers with the address behind the element, first answers an address for an empty array, the array does not grow beyond its first mapping, a failing mmap is not noticed (pointers are compared with <= 0), append of the linked list writes through the length of the element as a pointer. Theorems: `C97_newarray`, `C97_push`, `C97_iterate`, `C97_array`, `C97_first_partial`, `C97_push_address_refuted`, `C97_first_refuted`, `C97_grow_refuted`, `C97_nomem_refuted`, `C97_append_undefined`, `C97_append_refuted`, `C97_newlist_partial`, `C97_newlist_refuted`.
* **C98** Wrappers of system calls: partial. Exact: 85 of 100 wrappers with plain names and 258 of 304 with the prefix sys_ are faithful, the others are proved not to be. With five or six arguments the fourth (and sixth) is no operand of the asm statement. read, write, lseek, ftruncate, mprotect and mmap pass an int where the kernel takes 64 bits. mremap calls select. recv and fexecve inherit the defect of their wrappers. Theorems: `C98_numbers`, `C98_stubs_partial`, `C98_sys_partial`, `C98_stubs_refuted`, `C98_sys_refuted`, `C98_wrappers_refuted`, `C98_narrow_partial`, `C98_negative_refuted`, `C98_select`, `C98_poll`, `C98_open`, `C98_ioctl`, `C98_sys_brk`, `C98_mremap_refuted`, `C98_mmap_partial`, `C98_mmap_refuted`, `C98_creat`, `C98_mkfifo`, `C98_wait`, `C98_waitpid`, `C98_killpg`, `C98_recv_refuted`, `C98_fexecve_refuted`, `C98_sigprocmask`, `C98_sigsuspend`, `C98_unlockpt`, `C98_clone_refuted`, `C98_clone_partial`.
* **C99** Short names of errors and signals: partial. The name of 133 (EHWPOISON) is MEMPAGEFAULT, and the header has no EHWPOISON. Theorems: `C99_short_errstr_total`, `C99_short_errstr_partial`, `C99_short_errstr_refuted`, `C99_short_errstr_injective`, `C99_errno_numbers`, `C99_signame`.
* **C100** Structures of the headers against the records of the kernel: partial. Missing from the full statement: struct termios has 60 bytes, the kernel's record 36; the speeds and the control characters 19 to 31 are never filled in. Sizes from 16384 bytes on reach into the direction of an ioctl request. Theorems: `C100_read`, `C100_write`, `C100_room`, `C100_sizes_refuted`, `C100_sizes_partial`, `C100_members_refuted`, `C100_names`, `C100_nibbles`, `C100_nibbles_set`, `C100_layout`, `C100_kinds`, `C100_one_kind`, `C100_entry_types`, `C100_ioc`, `C100_ioc_injective`, `C100_ioc_refuted`, `C100_requests`.
* **C101** Removing comments from source text: partial. Proved for texts below one million bytes, fewer than 100000 lines below 10000 bytes, no carriage returns, first line not empty. Refuted: code behind a comment at the start of a line is lost, comments behind code stay, non-ASCII bytes at line ends are lost, an empty first line and too large texts are undefined. Theorems: `C101_shape_partial`, `C101_filtered`, `C101_doc_partial`, `C101_copy`, `C101_code_refuted`, `C101_eol_refuted`, `C101_high`, `C101_bytes_refuted`, `C101_first_line`, `C101_large`, `C101_wide`, `C101_safe_refuted`.
* **C102** Constants of the headers mean to the kernel what their names say: partial. Values of all listed constants except the two lock keys of sys/kbd.h, which the header has the wrong way round (refuted). The words of flags and the bounds of types are proved in full. Theorems: `C102_values_partial`, `C102_values_refuted`, `C102_words`, `C102_limits`.
* **C103** longjmp returns from the last setjmp: partial. longjmp with val 0 is proved for registers whose upper half is clean; with a dirty one setjmp returns 0 (refuted). Signal mask and floating point control words are not saved by the code and not modelled. Theorems: `C103_setjmp`, `C103_longjmp_partial`, `C103_longjmp_refuted`.
* **C104** Colour macros look as they are called: partial. All macros but four: AC_BGGREEN removes all colours instead of setting the background (refuted), AC_WHITE and AC_BGWHITE name no colour, AC_INVERSE hides the text. Theorems: `C104_macros_partial`, `C104_wrong`, `C104_macros_refuted`, `C104_text_partial`, `C104_names`.
* **C105** Packed words come apart again: proved. Theorems: `C105_st`, `C105_r32`, `C105_r64`, `C105_tags`, `C105_extra`, `C105_octets`, `C105_dscp`, `C105_options`, `C105_ctrl`.
* **C106** Switching functions on switches on everything they need: partial. Two passes over the groups are not enough: with opendir or closedir, brk is on without sys_brk; with getgroups or getgrouplist, getgrent without userdb or strcmp without its helper; with group_print, fprintf without globals; and vsprintf has lost its tag to a second, empty one (C106_depends_refuted, C106_depends_exact). For all sets without these six, everything required is on (C106_depends_partial), and for all sets nothing else (C106_minimal, with mini_0 for empty tags). 36 functions call something that is not compiled when they are switched on alone (C106_calls_refuted, C106_calls_exact names the way for each); for every other function in every set without the six, all that is called is compiled (C106_calls_partial). Theorems: `C106_depends_partial`, `C106_depends_exact`, `C106_depends_refuted`, `C106_minimal`, `C106_calls_exact`, `C106_calls_refuted`, `C106_calls_partial`.
* **C107** The engine with brackets and repetitions matches what it documents: partial. Patterns without { } ( ) @ # $ (and a few negations and escapes, ',' not at the end), with any callback for & that answers 0, -1 or a position inside the text: same answer, calls and struct as match_ext, hence sound and, under the conditions of C77, exact. {dX}, {*X}, {+X} and (X) with one class X: take what they should when something of the text is left. Refuted: a repetition or bracket at the end of the text fails; %# at the end of the text fails and calls the callback nevertheless; '#' at the end of the text accepts whatever follows it in the pattern; a negated set ends the match; '*' and others print to the standard output. Not proved: nested brackets, larger parts in brackets. Theorems: `C107_agree_partial`, `C107_sound_partial`, `C107_exact_partial`, `C107_count_partial`, `C107_star_partial`, `C107_plus_partial`, `C107_bracket_partial`, `C107_bracket_refuted`, `C107_count_refuted`, `C107_silent_refuted`, `C107_gap_refuted`, `C107_sound_refuted`, `C107_negated_refuted`.
* **C108** elftrunc cuts a static executable off behind its last loaded segment: partial. Names up to 1014 characters, table of program headers in the first two gigabytes. Refuted: a table behind the last loaded segment is cut off (the result can not be executed); a source whose name is 1014 characters and .trunc is overwritten; of a source shorter than its ELF header fields are used that were never read. Without a loaded segment that reaches the end of the ELF header the length wraps around and all of the file is copied, with status 2 for 64 bit files (C108_empty_partial). A 32 bit file shorter than its segments is copied with status 0 (C108_damaged_partial). Theorems: `C108_trunc_partial`, `C108_rename_partial`, `C108_dynamic`, `C108_other`, `C108_files_partial`, `C108_damaged_partial`, `C108_empty_partial`, `C108_name`, `C108_table_refuted`, `C108_source_refuted`, `C108_defined_refuted`, `C108_defined_partial`.
* **C109** A stream over a file is a file with a cursor: partial. Proved for every program whose seeks go forward and stay below 2 GB and which asks for positions, reads blocks, rewinds (or goes to position 0) only while no character is pushed back; the end of the file reads as 0 and positioning answers the position. Refuted beyond: fseek answers the position instead of 0, seeking backwards moves four gigabytes ahead, rewind keeps the character pushed back, ftell does not count it. Theorems: `C109_cursor_partial`, `C109_roundtrip_partial`, `C109_seek_refuted`, `C109_back_refuted`, `C109_rewind_refuted`, `C109_tell_refuted`, `C109_refuted`.
* **C110** Taking #if 0 parts out of the single header changes nothing for the compiler: partial. Proved for every well-formed text in which no #else or #elif belongs to an #if 0, nothing but 0 follows #if in these lines, and directives are written without blanks around the #; what is taken out and that other texts stay is proved in full. Refuted: the part behind #else is lost, #if 0x1 is taken for #if 0, a blank in front of # is not seen; a part without #endif keeps the script busy for ever. Theorems: `C110_same_partial`, `C110_gone`, `C110_unchanged`, `C110_endless_refuted`, `C110_else_refuted`, `C110_prefix_refuted`, `C110_blank_refuted`.
* **C111** Filling a template changes the marked place only: partial. Proved for files with one place whose marks are unambiguous, incl. filling again, and for files without marks. Refuted: without an end mark all lines behind the start mark are lost without a message; a second place of the same name is emptied. Theorems: `C111_fill_partial`, `C111_again_partial`, `C111_unmarked`, `C111_end_refuted`, `C111_second_refuted`.
* **C112** The single header has every included file once: partial. Proved in full when none of the files included is one of the seven names of line 49 (nor part of one): all files within reach, each once, in the order of a compiler. For every tree: the script ends, no file twice, and only these names can be missing. Refuted in general: the counter of the depth is not counted down for a file already seen, and then these names are left out although they were never included. Theorems: `C112_once_partial`, `C112_all_partial`, `C112_order_partial`, `C112_refuted`.
* **C113** The configuration made for a source names all library functions it calls: partial. Proved exactly: the functions named are those called outside of the arguments of other library calls, each once; with C106 what they need is compiled (with its exceptions). Missing: sources with _M_ in a name (refuted) and macros of their own. Refuted: calls in the arguments of another library call are not found; getopt has no macro; functions handed on as pointers are not found. Theorems: `C113_names_partial`, `C113_table`, `C113_compiled_partial`, `C113_refuted`, `C113_getopt_refuted`, `C113_pointer_refuted`, `C113_mark_refuted`.
* **C114** A configuration switches on exactly the functions it lists: partial. Proved for the functions of minilib.genconf.h, in files without lines that define a macro by its name; unknown names exactly; values; the way from a source over its configuration to what is compiled (with the exceptions of C106 and C113). False for longjmp (C114_refuted: mini_setjmp is defined instead) and compile buf (C114_buf_refuted: a size of nothing). Theorems: `C114_switch_partial`, `C114_unknown`, `C114_value`, `C114_autoconf_partial`, `C114_refuted`, `C114_buf_refuted`.
* **C115** An assembler file turned into C is assembled to the same statements: partial. Proved for every file whose statements hold no quote or backslash, have two bytes next to each other that are no blanks, do not contain the word global elsewhere than in an export (.global, one blank, the name), and do not contain an exported label together with something else; the braces for at most one export. Refuted: two exports, as in asm/start-linux-x64.S, leave a brace open; conditions are dropped and their lines stay; an instruction on the line of an exported label is lost; a quote ends the C string. Theorems: `C115_code_partial`, `C115_braces_partial`, `C115_refuted`, `C115_cond_refuted`, `C115_label_refuted`, `C115_quote_refuted`.
* **C116** The listing of conditional directives shows which belong together: partial. Proved for well-formed texts whose directives are written without blanks around the # and without #elif. Refuted: #elif is not listed; a directive with a blank behind the # is not seen and shifts the depths behind it. Theorems: `C116_listing_partial`, `C116_pairs_partial`, `C116_elif_refuted`, `C116_blank_refuted`.
* **C117** The generated header switches on what a function depends on, whatever the dependencies and the order: partial. The outcome is characterised exactly: going twice through the functions in the order of the hash. Nothing else is switched on, for all orders; everything up to two steps away, for all orders; everything required if functions come in front of what they depend on. Refuted: a chain of three dependencies in the wrong order is not covered (and for every number of passes one longer), so the header depends on the order of the hash. Theorems: `C117_exact`, `C117_only`, `C117_two_partial`, `C117_sorted_partial`, `C117_passes_refuted`, `C117_refuted`, `C117_order_refuted`.
* **C118** The documentation of a function names what it switches on: partial. For relations without cycles the generator ends and lists exactly the ends of the ways over names without leading underscore; all of these are switched on. Refuted: names in the middle of a chain and names with an underscore are left out; with a cycle the generator does not end. Theorems: `C118_exact_partial`, `C118_listed_partial`, `C118_refuted`, `C118_underscore_refuted`, `C118_cycle_refuted`.
* **C119** A tagged function is declared in the header by its prototype and under its name: partial. The declaration is proved for all prototypes without brackets among the parameters and without ){ in the rest of the line, and for all definitions whose tag has the name (two letters at least). It fails otherwise: a function as parameter is taken for the name, a blank in front of the brace leaves the name of the tag (doc/minilib.txt:487 has a function called def), a condition in the same line hides the name. Macros with parameters are registered under their names, macros without parameters (as EOF -1, EOF (-1)) under none, so they are left out. Theorems: `C119_declared_partial`, `C119_named_partial`, `C119_refuted`, `C119_blank_refuted`, `C119_body_refuted`, `C119_macro`, `C119_macro_next`, `C119_object_refuted`, `C119_object_value_refuted`.
* **C120** The documentation of a function has the text of its comment: partial. Proved for all comments with a text in the line of the tag. Where there is none the documentation has a line 0 (doc/minilib.txt has it for malloc), and the first line of a second comment is put behind the last line of the first one. Theorems: `C120_text_partial`, `C120_zero_refuted`, `C120_refuted`, `C120_second_refuted`.
* **C121** Generated headers may be included in any order and any number of times: partial. Proved for headers whose names are not alike, i.e. differ in more than dots, slashes and underscores; with conditions among the declarations (C121_any_partial, without #elif) and exactly for plain ones (C121_once_partial, C121_brings). Of two headers with names alike (sys/a.h, sys_a.h) the second brings nothing. Theorems: `C121_once_partial`, `C121_brings`, `C121_any_partial`, `C121_alike_refuted`, `C121_refuted`.
* **C122** Declarations are shown without specifiers and attributes, and otherwise as they are: partial. Proved for attributes without brackets inside and names that have none of the words inside. It fails for attributes as they are written, with two brackets, the second one of which stays, and for names such as inlined. Theorems: `C122_shown_partial`, `C122_bracket_refuted`, `C122_refuted`, `C122_name_refuted`.
* **C123** System calls are shown in the reference by their names and parameters: partial. The text and the name are proved for all definitions with parameters none of which is empty or a number. It fails for all calls without parameters: the reference shows DEF_syscall(sync,0), DEF_syscall(fork,0), DEF_syscall(getpid,0 ) (doc/minilib.txt:205, 3146, 3181); and for parameters that are numbers. DEF_syscallret (one use) is not modelled. Theorems: `C123_shown_partial`, `C123_one_comma`, `C123_noparams_refuted`, `C123_refuted`, `C123_number_refuted`.
* **C124** Every function is listed in one header: the one of the standard, or the one of its tag: partial. Where a function is listed is proved exactly, for all files; standard functions and functions that are defined once are in one header only. It fails for functions defined twice under different tags: the reference has tcgetattr and tcsetattr twice (doc/minilib.txt:1800, 3242). Theorems: `C124_exact`, `C124_standard`, `C124_listed`, `C124_one_partial`, `C124_twice_refuted`, `C124_refuted`.

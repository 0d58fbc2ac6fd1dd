#!/usr/bin/env python3
"""Source of properties.jsonl: run `python3 scripts/props.py` in /verif to regenerate it."""
import json, os

P = []
def prop(pid, title, statement, quantifier, why, anchors):
    P.append(dict(id=pid, title=title, statement=statement, quantifier=quantifier,
                  why_tests_cant=why, anchors=anchors))

S = "src/string/"
M = "src/memory/"
CV = "src/conversions/"

prop("C01", "strlen and strnlen measure the string and never read past it",
  "For every NUL-terminated string, strlen returns the number of bytes before the first NUL and reads no byte after that NUL; strlen(NULL) is 0. strnlen(s,max) with max>=1 returns min(strlen(s),max) and reads at most max bytes, so s need not be terminated.",
  "every memory, every string of every length, every max >= 1",
  "string lengths and contents are unbounded, and an overread is only visible when the next page happens to be unmapped",
  [S+"strlen.c: strlen", S+"strnlen.c: strnlen"])
prop("C02", "strcpy and stpcpy make an exact copy and write nothing else",
  "When src is a string and dest has room for strlen(src)+1 bytes that do not overlap src, strcpy/stpcpy leave exactly the bytes of src and its NUL at dest, change no other byte of memory, and return dest (strcpy) or the address of the NUL just written (stpcpy).",
  "every memory, every non-overlapping source string and destination",
  "a stray write one byte away is invisible to output-comparing tests; lengths are unbounded",
  [S+"strcpy.c: strcpy", S+"stpcpy.c: stpcpy"])
prop("C03", "strcat and strncat append exactly, terminate, and write nothing else",
  "strcat(dest,src) leaves dest as the concatenation of the two strings; strncat(dest,src,n) appends the first min(n,strlen(src)) bytes and one NUL, reading at most n bytes of src. No byte outside the appended part and its NUL changes, and dest is returned.",
  "every pair of strings, every n including 0 and n larger than the source, every placement without overlap",
  "unbounded lengths; off-by-one terminator writes hide in slack bytes",
  [S+"strcat.c: strcat", S+"strncat.c: strncat"])
prop("C04", "strncpy and stpncpy write exactly n bytes: the prefix of src, then NUL padding",
  "strncpy(dest,src,n) and stpncpy(dest,src,n) write exactly the n bytes dest[0..n) with the first min(n,strlen(src)) bytes of src followed by NULs, write nothing else, and stpncpy returns the address of the first padding byte (dest+n if there is none). They must read no more than n bytes of src.",
  "every source, every n >= 0, every placement without overlap",
  "all relations between n and the source length, and reads past an unterminated source of exactly n bytes",
  [S+"strncpy.c: strncpy", S+"stpncpy.c: stpncpy"])
prop("C05", "Size-bounded copies stay inside the given size and terminate",
  "strlcpy(dest,src,n) and stplcpy(dest,src,n) with n>=1 write only inside dest[0..n), and leave there a NUL-terminated string consisting of the first min(n-1,strlen(src)) bytes of src.",
  "every source string, every n >= 1",
  "the one-byte overflow only shows when the source is at least n bytes and the neighbouring byte matters",
  [S+"strlcpy.c: strlcpy", S+"stplcpy.c: stplcpy"])
prop("C06", "strcmp/strncmp implement lexicographic order on unsigned bytes",
  "The sign of strcmp(a,b) is the lexicographic order of the two byte strings compared as unsigned chars, 0 exactly when they are equal; strncmp(a,b,n) compares the first n bytes the same way. Hence strcmp is reflexive, antisymmetric in sign and transitive, so it is a valid comparison function for qsort/bsearch. Neither reads past the first differing byte, the NUL, or byte n.",
  "every pair (triple) of strings, every n >= 0",
  "a total-order claim quantifies over all triples of strings",
  [S+"strcmp.c: _strcmp, strcmp, strncmp"])
prop("C07", "strcasecmp/strncasecmp compare modulo ASCII case",
  "strcasecmp(a,b) is 0 exactly when the strings are equal after mapping A-Z to a-z, and otherwise its sign is the order of the mapped strings; strncasecmp compares the first n bytes in the same way.",
  "every pair of strings, every n",
  "all byte pairs including punctuation that differs only in bit 5, and all prefixes",
  [S+"strcasecmp.c: _strcasecmp, strcasecmp, strncasecmp", "include/ctype.h: tolower"])
prop("C08", "strchr, strchrnul and strrchr find the first/last occurrence",
  "strchr(s,c) returns the address of the first byte of s equal to (char)c (the terminating NUL counts), or NULL when there is none; strchrnul returns the address of the NUL instead of NULL; strrchr returns the address of the last such byte, or NULL. None reads past the terminating NUL.",
  "every string, every c in 0..255 as well as the negative char values",
  "all positions, all byte values including those >= 0x80 and 0",
  [S+"strchr.c: strchr", S+"strchrnul.c: strchrnul", S+"strrchr.c: strrchr"])
prop("C09", "strspn and strcspn return the length of the maximal accepting/rejecting prefix",
  "strcspn(s,reject) is the length of the longest prefix of s without a byte of reject; strspn(s,accept) is the length of the longest prefix made only of bytes of accept. The table-driven and the plain build variants of strcspn agree. Neither reads past the two terminating NULs.",
  "every pair of strings",
  "unbounded pairs of strings and all 256 byte values in the table variant",
  [S+"strcspn.c: strcspn", S+"strspn.c: strspn"])
prop("C10", "strpbrk finds the first byte of a set",
  "strpbrk(s,accept) returns the address of the first byte of s that occurs in accept, or NULL when there is none.",
  "every pair of strings",
  "unbounded pairs of strings",
  [S+"strpbrk.c: strpbrk"])
prop("C11", "strstr finds the first occurrence of a substring",
  "strstr(big,little) returns the address of the first position of big at which little occurs, big itself for the empty little, and NULL when there is no occurrence, and reads no byte past the two terminating NULs.",
  "every pair of strings including the empty ones",
  "self-overlapping patterns of any length, partial matches at every position",
  [S+"strstr.c: strstr"])
prop("C12", "Repeated strtok_r/strtok calls enumerate exactly the maximal delimiter-free pieces",
  "Calling strtok_r once with the string and then with NULL until it returns NULL yields exactly the non-empty maximal runs of non-delimiter bytes, in order, each NUL-terminated in place; only delimiter bytes are overwritten; the scan never reads past the original NUL.",
  "every string, every delimiter set (also changing between calls), every number of calls",
  "a property of whole call histories over unbounded strings",
  [S+"strtok_r.c: strtok_r", S+"strtok.c: strtok"])
prop("C13", "strdup and strndup return an independent copy that fits its allocation",
  "When the allocator succeeds, strdup(s) returns a fresh block large enough for the copy and its NUL, holding exactly s; strndup(s,n) likewise holds the first min(n,strlen(s)) bytes and a NUL. No byte outside the new block is written.",
  "every string, every n, every allocator state",
  "the missing byte is hidden by allocator rounding for three lengths out of four",
  [S+"strdup.c: strdup", S+"strndup.c: strndup", M+"malloc.c: malloc"])
prop("C14", "memcpy and memset write exactly the requested range",
  "memcpy(d,s,n) for disjoint ranges leaves at d the n bytes of s, memset(d,c,n) leaves n copies of (unsigned char)c; nothing else changes and the destination is returned. The word-wise optimised build variant of memcpy has the same effect as the byte loop.",
  "every memory, every n >= 0, every alignment and remainder modulo the word size",
  "all length residues and the overlapping wide stores of the optimised variant",
  [M+"memcpy.c: memcpy", M+"memset.c: memset"])
prop("C15", "memmove copies correctly also when the ranges overlap",
  "memmove(d,s,n) leaves at d the n bytes that were at s before the call, for every relative position of the two ranges.",
  "every pair of ranges, overlapping in either direction or not",
  "all overlaps and lengths",
  [M+"memmove.c: memmove"])
prop("C16", "memcmp and memchr",
  "memcmp(a,b,n) is 0 exactly when the two ranges of n bytes are equal and otherwise has the sign of the first differing pair compared as unsigned chars; memchr(s,c,n) returns the first position among the n bytes equal to (unsigned char)c, or NULL, and reads no byte beyond the first match.",
  "every pair of ranges, every n >= 0, every c",
  "all byte values including >= 0x80, all positions",
  [M+"memcmp.c: memcmp", M+"memchr.c: memchr"])
prop("C17", "malloc hands out aligned, in-bounds, pairwise disjoint blocks in every history",
  "For every sequence of malloc (size >= 1) and free (of a pointer currently live), every successful malloc returns a 4-byte aligned pointer to at least size bytes that lie inside the arena, above the region left as scratch, and overlap neither any other live block nor any allocator bookkeeping word.",
  "every arena size, every finite history of malloc/free calls with valid arguments (sizes 1 to INT_MAX-7)",
  "histories and coalescing patterns are unbounded",
  [M+"malloc.c: malloc, free", "src/intern/startup.c: ml_start"])
prop("C18", "malloc and free never modify the contents of live blocks",
  "No malloc or free of a valid history changes a byte of the payload of any other live block; a payload keeps what the program stored until it is freed. A program write into its own payload never disturbs the allocator.",
  "every history of malloc (sizes 1 to INT_MAX-7), free and payload writes",
  "the footer/flag words written by free sit next to payloads; only the exact arithmetic keeps them apart",
  [M+"malloc.c: malloc, free"])
prop("C19", "Freeing everything gives the whole arena back",
  "After any valid history in which every block that was allocated has been freed, in any order, the allocator is back in its initial state: the same sequence of mallocs that succeeds on a fresh arena succeeds again.",
  "every history (request sizes 1 to INT_MAX-7), every order of frees",
  "factorially many free orders; depends on coalescing never leaving two adjacent free blocks",
  [M+"malloc.c: malloc, free"])
prop("C20", "A failed malloc has no effect",
  "malloc returns NULL exactly when the remaining unallocated part of the arena could not keep its 64 byte reserve after the request, and then neither the arena nor the allocator state changes.",
  "every state, every request size >= 1",
  "exhaustion boundaries for every state",
  [M+"malloc.c: malloc"])
prop("C21", "malloc(0) and hostile sizes are safe",
  "malloc(0) returns NULL or a block that can be freed in any order without harming other blocks; a size that does not fit into int (negative after conversion) is refused.",
  "every state, sizes 0 and negative",
  "needs the combination with later frees in an unlucky order",
  [M+"malloc.c: malloc, free"])
prop("C22", "calloc returns nmemb*size zero bytes",
  "A successful calloc(nmemb,size) returns a block of at least nmemb*size bytes, all of them zero.",
  "every nmemb and size, every previous arena contents",
  "the arena must hold stale data at the right place",
  [M+"calloc.c: calloc"])
prop("C23", "realloc preserves the contents and fits the new block",
  "A successful realloc(p,n) returns a block of at least n bytes whose first min(old size,n) bytes are those of the old block; it writes no byte outside the new block and the old one, and on failure returns NULL leaving the old block intact.",
  "every old size, every new size, every allocator state",
  "growth and shrinkage by every amount",
  [M+"malloc.c: realloc"])
prop("C24", "map_protected/unmap_protected: guarded mapping of at least len bytes",
  "map_protected(len) yields a usable region of at least len bytes with one inaccessible page directly before it and one after, and unmap_protected(addr,len) with the same len unmaps exactly that mapping. If the kernel refuses, the error is reported.",
  "every len from 0 to INT_MAX-12647, every answer of the kernel",
  "page arithmetic for every length including exact multiples of the page size",
  [M+"map_protected.c: map_protected", M+"unmap_protected.c: unmap_protected"])
prop("C25", "Decimal conversion of int prints the right digits",
  "itodec/uitodec write the decimal representation of the number (sign first) without leading zeros when no width is requested, return the number of bytes written and write no other byte; with a width they left-pad with the given character.",
  "every 32 bit value including 0 and INT_MIN, every width and pad character",
  "2^32 values times all widths",
  [CV+"itodec.c: itodec, uitodec"])
prop("C26", "Decimal conversion of long prints the right digits",
  "ultodec/ltodec write the decimal representation of the 64 bit number; the result parses back to the number.",
  "every 64 bit value",
  "2^64 values",
  [CV+"ultodec.c: ultodec", CV+"ltodec.c: ltodec"])
prop("C27", "Hexadecimal, binary and octal conversion print the right digits",
  "itohex/itoHEX/itobin/itooct write the base 16/2/8 representation of the unsigned value, padded to the requested precision, and return the number of bytes written.",
  "every 32 bit value, every precision",
  "2^32 values times all precisions",
  [CV+"itohex.c: itohex, itoHEX, _itohex", CV+"itobin.c: itobin, _itobin", CV+"itooct.c: itooct"])
prop("C28", "atoi/atol parse what the decimal printers print",
  "atol and atoi return the value of an optionally signed digit string whose value fits, so atoi(itodec(n)) = n and atol(ltodec(n)) = n for all n; parsing stops at the first non-digit.",
  "every representable number, every trailing text",
  "2^64 values and unbounded trailing text",
  [CV+"atoi.c: atoi", CV+"atol.c: atol"])
prop("C29", "strtol/strtoimax parse an integer in any base and report the end",
  "For base 2..36, strtol returns the value of the longest prefix (after white space and optional sign) of digits valid in that base, stores the address of the first byte not consumed through endp, and saturates on overflow; base 0 deduces the base from the prefix.",
  "every string, every base",
  "all bases, all digit strings, all terminators",
  [S+"strtol.c: strtol", S+"strtoimax.c: strtoimax", S+"strtoll.c: strtoll"])
prop("C30", "Byte order conversion",
  "htonl and htons reverse the byte order on the little-endian target and are involutions; ntohl/ntohs are their inverses.",
  "every 32/16 bit value",
  "2^32 values",
  ["src/network/htonl.c: htonl", "src/network/htons.c: htons", "src/network/ntohl.h: ntohl, ntohs"])
prop("C31", "IPv4 text conversion round-trips",
  "inet_ntoa writes the dotted quad of the address, NUL-terminated, in at most 16 bytes, and inet_aton of that text gives the address back.",
  "every 32 bit address",
  "2^32 addresses",
  ["src/network/inet_ntoa.c: inet_ntoa", "src/network/inet_aton.c: inet_aton"])
prop("C32", "qsort sorts",
  "For every comparison function that is a total preorder, qsort leaves a permutation of the input array in non-decreasing order and touches nothing outside the array.",
  "every array length, every element size, every contents, every total preorder",
  "factorially many inputs",
  ["src/sort/qsort.c: qsort", "src/sort/swap.c: swap"])
prop("C33", "bsearch finds an element iff one is present",
  "On an array sorted with respect to the comparison function, bsearch returns the address of an element comparing equal to the key if there is one and NULL otherwise, and reads only elements of the array.",
  "every sorted array, every key",
  "all lengths and positions",
  ["src/sort/bsearch.c: bsearch"])
prop("C34", "Hash functions and checksums are incremental folds",
  "djb2_hash and sdbm_hash compute the documented recurrence over all bytes of the string with 64 bit wraparound; bsd_cksumblock over a concatenation equals chaining it over the parts, so a checksum does not depend on how the data was split into blocks.",
  "every byte string, every split, every starting state",
  "all splits of all inputs",
  ["src/math/hashes.c: djb2_hash", "src/math/sdbm_hash.c: sdbm_hash", "src/file/cksum.c: bsd_cksumblock"])
prop("C35", "Integer power",
  "ipoweriui(x,n) and ipoweri(x,n) are x^n whenever x^n is representable in an int; for a negative exponent ipoweri is 0 unless the base is 1 or -1 (the mathematical power, truncated).",
  "every base and exponent",
  "2^64 argument pairs",
  ["src/math/powers.c"])
prop("C36", "rand never gets stuck and every seed is usable",
  "rand always returns a value in 0..RAND_MAX and its state never becomes stuck at zero; the state update is injective so that the generator does not lose state.",
  "every seed, every number of calls",
  "2^32 states and unbounded call sequences",
  ["src/math/rand.c: rand", "src/math/srand.c: srand"])
prop("C37", "snprintf/vsnprintf never write outside the buffer",
  "vsnprintf(buf,size,fmt,...) with size >= 1 writes only inside buf[0..size) for every format and argument list, or stops with a signal when the output does not fit.",
  "every size, every format string, every argument list",
  "unbounded formats and arguments; the overflow hits by exactly one byte in rare combinations",
  ["src/output/vsnprintf.c: vsnprintf", "src/output/snprintf.c: snprintf", "macros/overrun.h: OVERRUN"])
prop("C38", "printf output is the rendering of the format",
  "When the output fits, the bytes written are the format with every conversion (%s %c %d %u %x %X %o %%...) replaced by the text of its argument, followed by a NUL, and the number of bytes (without NUL) is returned.",
  "every format built from supported conversions, every argument list",
  "unbounded formats and arguments",
  ["src/output/vsnprintf.c: vsnprintf"])
prop("C39", "snprintfs stays in its buffer and concatenates its arguments",
  "snprintfs(buf,size,fmt,...) writes the format with every %s and %c replaced by its argument (an unknown %x prints nothing), truncated to fit, NUL-terminated inside buf[0..size), and returns the length of what it wrote.",
  "every size >= 1, every format and strings",
  "truncation at every position",
  ["src/output/snprintfs.c: snprintfs"])
prop("C40", "Formatted output to a descriptor does not disturb allocated memory",
  "fprintf/dprintf use only the unallocated part of the arena as scratch space: no payload or bookkeeping word of a live or free block changes.",
  "every allocator state, every format whose rendering fits",
  "needs every allocator state",
  ["src/output/dprintf.c: dprintf", "src/output/fprintf.c: fprintf"])
prop("C41", "fgets returns a NUL-terminated line prefix and respects the size",
  "fgets(buf,size,stream) stores at most size-1 bytes of the stream up to and including the first newline, then a NUL, never writing outside buf[0..size); consecutive calls deliver the whole stream without loss.",
  "every stream contents, every size >= 1, every chunking of reads",
  "all line lengths relative to size, at end of file",
  ["src/streams/fgets.c: fgets", "src/streams/fgetsn.c: fgetsn", "src/streams/fgetsp.c: fgetsp"])
prop("C42", "fgetc/ungetc deliver the stream byte by byte",
  "Reading with fgetc returns the bytes of the stream in order and EOF (-1) at the end; a byte pushed back with ungetc is returned by the next fgetc, and everything else is unaffected.",
  "every stream, every byte value, every interleaving of fgetc and ungetc",
  "all byte values at all positions",
  ["src/streams/fgetc.c: fgetc", "src/streams/ungetc.c: ungetc"])
prop("C43", "Every open stream has its own slot; a closed stream's slot is reusable",
  "fopen/fdopen return a slot not used by any other open stream or fail; fclose releases exactly the stream given; at most FOPEN_MAX streams are open at a time.",
  "every history of fopen and fclose calls",
  "open/close histories are unbounded",
  ["src/streams/_fopen.c: _fopen", "src/streams/fopen.c: fopen", "include/mini_fstream.h: fclose"])
prop("C44", "fread/fwrite transfer everything in spite of short reads and writes",
  "fread and fwrite call the kernel until all bytes are transferred, end of file or an error; the data transferred is the corresponding prefix and the returned count says how much was transferred.",
  "every schedule of short transfers by the kernel",
  "the kernel may split the transfer in any way",
  ["include/mini_fstream.h: fread, fwrite"])
prop("C45", "getenv returns the value of exactly the named variable",
  "getenv(name) returns the text after 'name=' of the first environment entry for that name and NULL when there is none, without reading outside the environment strings.",
  "every environment, every name",
  "names that are prefixes of other names, entries without '='",
  ["src/system/getenv.c: getenv"])
prop("C46", "setenv/putenv/unsetenv update exactly the named variable",
  "After setenv/putenv of a variable, getenv of that name gives the new value and every other variable is unchanged; after unsetenv the name is gone and the others are unchanged.",
  "every environment, every sequence of updates",
  "names that are prefixes of each other, arbitrary histories",
  ["src/system/setenv.c: setenv", "src/system/putenv.c: putenv", "src/system/unsetenv.c: unsetenv"])
prop("C47", "atexit handlers run in reverse order, each exactly once",
  "At exit every function registered successfully with atexit is called exactly once, in reverse order of registration; registration fails without effect once ATEXIT_MAX handlers are registered.",
  "every sequence of registrations",
  "all counts up to and beyond the limit",
  ["src/process/atexit.c: atexit", "src/intern/startup.c: ml_exit"])
prop("C48", "Signal set operations act on one signal",
  "sigaddset/sigdelset/sigismember on signal s (1..64) set, clear and test membership of exactly s and leave all other members alone; sigemptyset/sigfillset clear/fill.",
  "every set, every signal number 1..64",
  "all sets of 64 signals",
  ["src/process/sigaction.c: sigaddset, sigdelset, sigismember, sigemptyset, sigfillset"])
prop("C49", "FD_SET/FD_CLR/FD_ISSET act on one descriptor",
  "After FD_SET(d), FD_ISSET(d) holds and the membership of every other descriptor is unchanged; FD_CLR removes exactly d; FD_ZERO empties.",
  "every set, every descriptor 0..1023, every history",
  "2^1024 sets",
  ["include/globaldefs.h: FD_SET, FD_CLR, FD_ISSET, FD_ZERO"])
prop("C50", "wait status macros partition the status",
  "For a status built for exit code e, WIFEXITED holds and WEXITSTATUS is e; for one killed by signal s, WIFSIGNALED holds and WTERMSIG is s; stopped and continued are recognised; exactly one classification applies.",
  "every exit code, signal, core flag",
  "a classification over all 2^16 statuses",
  ["include/globaldefs.h: WIFEXITED, WEXITSTATUS, WIFSIGNALED, WTERMSIG, WIFSTOPPED, WIFCONTINUED"])
prop("C51", "Alignment macros round up to the next multiple",
  "ALIGN_n(x) is the least multiple of n that is >= x, for 2,4,8,16 and the pointer size.",
  "every value without overflow",
  "all values",
  ["macros/alignment.h"])
prop("C52", "match: text matches pattern according to the documented wildcard rules",
  "match(text,pattern) accepts exactly the texts described by the pattern: '*' any string, '+' a nonempty string, '?' one character, character classes, escapes; it never reads past either terminator.",
  "every text, every pattern",
  "unbounded patterns with backtracking",
  ["src/match/match.c: _match, match"])
prop("C53", "basename and dirname decompose a path",
  "dirname(p) and basename(p) return the directory and the last component of p in place, without reading outside the string; '' and NULL give '.', all-slash paths give '/'.",
  "every path",
  "all slash patterns",
  ["src/directories/basename.c: basename", "src/directories/dirname.c: dirname"])
prop("C54", "readdir delivers every directory entry once, in order",
  "Successive readdir calls return each entry of every buffer delivered by the kernel exactly once and in order, refilling only when the buffer is used up, and NULL at the end or on error; rewinddir starts over.",
  "every partition of the entries into kernel buffers",
  "the kernel may split the directory in any way",
  ["src/directories/readdir.c: readdir", "src/directories/rewinddir.c: rewinddir"])
prop("C55", "Password and group files are parsed field by field",
  "getpwent/getgrent return for every well-formed line exactly its colon separated fields; getpwnam/getpwuid/getgrnam/getgrgid return the first entry with that key or NULL; getusergroups and getgrouplist list the groups of a user.",
  "every file contents, every key, every call history",
  "unbounded files and histories of lookups",
  ["src/userdb/userdb.c: token_s, token_i", "src/userdb/userdb_open.c", "src/userdb/getpwent.c", "src/userdb/getpwnam.c", "src/userdb/getpwuid.c", "src/userdb/getgrent.c", "src/userdb/getgrnam.c", "src/userdb/getgrgid.c", "src/userdb/getusergroups.c", "src/userdb/getgrouplist.c"])
prop("C56", "getopt/regetopt reports each option once, in order",
  "Scanning an argument vector with getopt returns exactly the options present, with their arguments, in order, and leaves the index at the first operand.",
  "every argument vector, every option string",
  "unbounded argument vectors",
  ["contrib/regetopt/regetopt.c", "contrib/getopt/getopt.h: getopt", "macros/getoptm.h"])
prop("C57", "PATH search tries every directory in order",
  "where/execvp with a name containing no slash tries dir/name for every element dir of PATH in order and uses the first one that is executable; a name with a slash is used as is.",
  "every PATH value, every name",
  "all element counts, empty elements",
  ["src/exec/where.c: where", "src/exec/_execvp.c"])
prop("C58", "Character classification macros agree with ASCII",
  "isalpha, isdigit, isspace, ... tolower, toupper agree with the C locale definitions on every character 0..127.",
  "every character",
  "a complete table, also for characters outside ASCII",
  ["include/ctype.h"])
prop("C59", "strerror/perror name the error number",
  "strerror(n) yields a NUL-terminated text that determines n for 0..999 and never writes outside its buffer.",
  "every error number",
  "all numbers, including out of range ones",
  [S+"strerror.c: strerror"])
prop("C60", "The sorting templates of ksort.h and qsort.h sort",
  "ks_mergesort and __ks_insertsort leave the array sorted with equivalent elements in their old order; ks_combsort, ks_introsort, QSORT and ks_heapsort after ks_heapmake leave it sorted; ks_ksmall returns the element that sorting puts at the given place; ks_shuffle only rearranges. All end, stay inside the array, and the stacks of fixed size suffice.",
  "every array, every strict weak order, every sequence of random numbers",
  "factorially many inputs, stack depth depends on the length",
  ["contrib/ksort.h: ks_mergesort, ks_heapmake, ks_heapadjust, ks_heapsort, __ks_insertsort, ks_combsort, ks_introsort, ks_ksmall, ks_shuffle", "contrib/qsort.h: QSORT"])

prop("C61", "inet_aton rejects what is not an address",
  "inet_aton returns nonzero exactly for texts of the form a.b.c.d with each part a decimal number in 0..255.",
  "every text",
  "infinitely many malformed texts",
  ["src/network/inet_aton.c: inet_aton"])
prop("C62", "ether_ntoa prints the hardware address",
  "ether_ntoa writes the six octets as colon separated two digit hexadecimal numbers, within its buffer.",
  "every hardware address",
  "2^48 addresses",
  ["src/network/ether_ntoa.c: ether_ntoa"])
prop("C63", "gethostname stays inside the caller's buffer",
  "gethostname(name,len) with len >= 1 writes only inside the len bytes of the buffer and always leaves a NUL-terminated name there: the host name, or the longest prefix of it that fits; on failure of the kernel it writes nothing and reports it.",
  "every host name, every length",
  "all lengths around the boundary and all names",
  ["src/network/gethostname.c: gethostname"])
prop("C64", "errno_str prints the error number",
  "errno_str(n) yields the decimal text of |n| for the documented range below 200 and writes only its own buffer.",
  "every error number in the range",
  "exact text and frame for the whole range and every memory",
  ["src/process/errno_str.c: errno_str"])
prop("C65", "The compact and the plain table of error texts agree",
  "verbose_errstr2(n), which walks a packed table, yields the same text as verbose_errstr(n) for every n.",
  "every number",
  "the walk over the packed table depends on every preceding entry",
  ["include/errstr2.h", "include/errstr.h"])
prop("C66", "bsd_cksum is the BSD checksum",
  "bsd_cksumblock computes the checksum of sum(1): rotate right by one and add the byte as an unsigned number, modulo 2^16.",
  "every byte sequence",
  "all data, in particular bytes above 127",
  ["src/file/cksum.c: bsd_cksumblock"])
prop("C67", "div, ldiv, abs, labs",
  "div and ldiv return quotient and remainder truncated toward zero with q*d+r = n and |r| < |d|; abs and labs return the magnitude whenever it is representable.",
  "every argument pair with a nonzero divisor and representable quotient",
  "2^64 argument pairs",
  ["include/math.h: div, ldiv, abs, labs"])
prop("C68", "dprints, fputs and fprintfs deliver their text to their descriptor",
  "dprints (prints, eprints), fputs and fprintfs (printfs) offer exactly the text they stand for, in order, to their descriptor and to no other; with a descriptor that takes everything the text is delivered and its length returned; with one that takes parts, the beginning of the text is delivered.",
  "every list of strings or format with arguments, every behaviour of the kernel",
  "the kernel may split or refuse any of the writes",
  ["src/output/dprints.c: dprints", "src/output/fprintfs.c: fprintfs", "include/fputs.h: fputs", "include/prints.h: prints, printfs"])
prop("C69", "Stream flags: end of file, error, and the descriptor",
  "Reading, pushing back, seeking and clearing never change the descriptor of a stream; feof is true exactly after the end of the file was met, ferror exactly after an error; clearerr clears the flags and nothing else; a successful fseek, fsetpos or rewind clears the end of file flag and a failed one changes nothing.",
  "every state of a stream, every answer of lseek",
  "the flags, the descriptor and the pushed back character share one word; all combinations matter",
  ["include/mini_fstream.h: feof, ferror, clearerr, fseek, fsetpos, rewind, fileno", "include/globaldefs.h: FD_MASK, FLAG_MASK, UNGETC_MASK"])
prop("C70", "fopen translates the mode to the flags of open",
  "fopen opens the file with the flags the C standard and POSIX assign to the mode (r, w, a, each with an optional + and b), refuses other modes, and reads nothing but the mode string.",
  "every mode string",
  "all positions of the + and all other characters",
  ["src/streams/_fopen.c: _fopen"])
prop("C71", "fgetud and fgetul read the decimal number at the front of a stream",
  "fgetud and fgetul return the number denoted by the longest sequence of digits at the front of the stream (modulo the size of the result; 0 without digits), and consume the digits and one byte after them.",
  "every stream, every number of digits, every chunking of reads",
  "numbers of every length, wrapping around",
  ["src/streams/fgetud.c: fgetud", "src/streams/fgetul.c: fgetul"])
prop("C72", "execl passes exactly its arguments",
  "execl gives the new program the vector consisting of arg0, the arguments up to the terminating NULL, and NULL; nothing behind the NULL is read.",
  "every number and every value of the arguments",
  "every number of arguments",
  ["src/exec/execl.c: execl"])
prop("C73", "system and vexec return the outcome of the child",
  "system and vexec wait for their own child, whatever waitpid reports before it, and return its exit code; they return also when the child is killed by a signal, with an answer that differs from success.",
  "every exit code, every signal, every sequence of answers of waitpid",
  "interrupted calls and children killed by signals; non-termination cannot be observed by a test",
  ["src/exec/system.c: system", "src/exec/vexec.c: vexec", "src/exec/vexec_q.c: vexec_q"])

prop("C74", "ks_sample draws a sample inside the array",
  "ks_sample returns after moving a random sample to the front, touching only the array.",
  "every array, every sample size, every sequence of random numbers",
  "the loop of random length depends on rounding; whether it leaves the array depends on all rounds before",
  ["contrib/ksort.h: ks_sample"])

prop("C75", "malloc_brk hands out disjoint blocks on the data segment and gives them back",
  "malloc_brk returns NULL or a 4-byte aligned block of the requested size between the start of the data segment and the break, disjoint from all blocks in use; free, realloc and free_brk change no other block; realloc keeps the contents; what the program stored stays; a freed last block, a return to a saved break and free_brk set the break back; when the kernel refuses memory, brk reports an error and malloc_brk returns NULL.",
  "every sequence of malloc_brk, free, realloc, getbrk/brk and free_brk, every size including 0, every limit of the kernel",
  "unbounded histories, block layouts and limits; the refusing kernel is hard to provoke",
  ["src/memory/malloc_brk.c: malloc_brk", "src/memory/malloc.c: free, realloc", "src/memory/freebrk.c: free_brk", "src/memory/brk.c: brk", "src/memory/sbrk.c: sbrk", "src/memory/getbrk.c: getbrk", "src/memory/setbrk.c: setbrk", "src/memory/sys_brk.c: sys_brk"])

prop("C76", "scandir lists exactly the selected entries, sorted",
  "scandir returns the number of the entries of the directory which the selection accepts; the list points to the records of exactly these entries, unchanged, in the order of the comparison (without one, in that of the directory), whatever the selection, the comparison and the partition of the directory into batches; list and records are in one block of the data segment, nothing in front of it changes. alphasort orders by the bytes of the names. On errors the negative errno is returned.",
  "every directory, every partition into batches, every selection, every total preorder, every history of the data segment",
  "unbounded directories, overlapping moves while compacting, callbacks",
  ["src/directories/scandir.c: scandir", "src/directories/alphasort.c: alphasort", "include/seterrno.h: seterrno"])

prop("C77", "match_ext finds what the pattern describes and reports it",
     "match_ext returns 1 only for texts the pattern describes; each '%' is then reported to the callback with its number, position and length, the last one first, and the struct tells the first one; without a match nothing is reported. Patterns without the additional syntax mean the same as to match. A count {nX} stands for n characters of X, a '&' asks the callback and moves on by what it says.",
     "all texts, all patterns of the documented grammar, all callbacks",
     "Patterns and texts are unbounded and the engine recurses at every '*', '+' and '%'; the order of the reports and the struct depend on the whole search, tests see single patterns.",
     ["src/match/match_ext.c:match_ext"])

prop("C78", "getopt_long reports the options, short and long, of every argument vector",
     "Calls of getopt_long report exactly the options of the argument vector in order and with their arguments, clusters of short options split, a long option selected by its name or an unambiguous abbreviation of it; flags are stored and the index is reported; then -1, with the operands in their order at the end of the vector, which is only permuted. An unknown or ambiguous option, a missing argument or a value for an option that takes none is answered by '?' (a missing argument by ':' when the option string starts with a colon), with a message unless opterr is 0; the scan can go on. After a reset of optind another vector can be scanned.",
     "every option string, every table of long options, every argument vector, every number of calls",
     "Vectors, tables and words are unbounded, and the state left by each word (position in a cluster, operands moved to the end) decides how the next is read.",
     ["contrib/regetopt/regetopt.c:regetopt, handle_short_option, handle_long_option, is_option, reorder"])

prop("C79", "endian.h converts to and from big-endian",
     "htobe16/32/64 give a number whose bytes in memory are the big-endian representation, htole16/32/64 the little-endian one; be…toh and le…toh are their inverses; the swaps agree with htonl and htons.",
     "every 16, 32 and 64 bit number",
     "2^64 values; whether the header picks the right branch is decided by the preprocessor and shows only in the memory layout.",
     ["headers/common/endian.h: __bswap16, __bswap32, __bswap64, htobe16, htobe32, htobe64, htole16, htole32, htole64"])

prop("C80", "Times are added, subtracted and compared exactly; sleep and usleep sleep for the time asked for",
     "timespecadd and timespecsub give the sum and difference of two times as a proper struct timespec, also in place, and change nothing else; they are inverse to each other and defined whenever the result is a time; timespeccmp orders as the times, timespecisset and timespecclear test for and set time 0. usleep sleeps for exactly the microseconds; sleep and usleep answer 0 exactly when the time has passed, sleep otherwise the rest.",
     "every pair of times, every aliasing of the objects, every unsigned int, every interruption",
     "carries and borrows at every boundary, overflow, and interruptions at every moment",
     ["include/bsd_timespec.h: timespecadd, timespecsub, timespeccmp, timespecclear, timespecisset", "src/process/sleep.c: sleep, usleep"])

prop("C81", "System calls hand on what the kernel answers",
     "The wrapper of a system call returns the answer of the kernel, and for an error -1 with the number in errno (without errno: the negative number), leaving errno alone otherwise. lseek moves to the position asked for and answers it; ftruncate sets the size; mprotect answers 0 and touches nothing.",
     "every answer of the kernel, every offset, every position, every size",
     "64 bit answers and offsets; files of more than 2 GB; what is in the upper half of a register",
     ["include/syscall.h: REAL_define_syscall, REAL_define_syscallret", "include/lseek.h: lseek, ftruncate", "include/syscall_stubs.h: mprotect"])

prop("C82", "Signal actions, abnormal ends and error reports",
     "signal and sigaction set the action of the one signal and give the old one; for numbers whose action cannot be set they report an error and change nothing; sigaction without a new action only tells the old one. abort ends the process by SIGABRT, whatever its action and whether it is blocked. exit_errno writes the number of the error on a line and ends with it as status. perror writes the message, a colon and a blank, the text of the error and a newline. open answers -1 for an error.",
     "every history of calls of signal, every action, every behaviour of a handler, every error number, every message",
     "unbounded histories; handlers that return, end the process or change the actions; the ends of processes",
     ["src/process/sigaction.c: sigaction, raise", "src/process/signal.c: signal", "src/process/abort.c: abort", "src/process/exit_errno.c: exit_errno", "src/output/perror.c: perror", "src/file/open.c: open"])

prop("C83", "PARSEOPTS_short finds the options and the first regular argument",
     "PARSEOPTS_short sets the bit of every letter given in a word that starts with a dash and of no other, does the action unrecognized for exactly the letters that are not among the options allowed, and returns the index of the first regular argument. GETOPT_short and SETOPT_short test and set one option without touching the others.",
     "every argument vector, every set of allowed letters, every value of the bit field before",
     "argument vectors are unbounded; the set of allowed letters is an expression evaluated inside the macro",
     ["macros/getoptm.h: PARSEOPTS_short, GETOPT_short, SETOPT_short"])

prop("C84", "kmalloc hands out disjoint aligned blocks, reuses freed ones and survives double frees",
     "After every history of kmalloc, kfree and krealloc the blocks held are mapped, aligned, pairwise disjoint and keep what has been stored in them; a request that cannot be met is answered NULL; freeing a block twice has no effect; a freed block is handed out for the next request of its size without growing the data segment; krealloc keeps the bytes up to the smaller size and leaves the old block alone when it fails; kcalloc gives zeros; kmalloc_usable_size answers at least the bytes requested.",
     "every sequence of requests, frees, repeated frees, resizes and stores, of every size, and every kernel limit",
     "histories and sizes are unbounded, and the corruption of a free list shows only many calls later",
     ["contrib/kmalloc/kmalloc.c: kmalloc, kcalloc, kfree, krealloc, kmalloc_usable_size, morecore"])

prop("C85", "Terminal settings are read, changed and written back",
     "tcgetattr gives the settings of the terminal, tcsetattr sets those of the struct, and other terminals keep theirs; cfmakeraw clears and sets exactly the bits and control characters of the manual, so that reading, cfmakeraw and writing give raw mode; writing back what has been read changes nothing; isatty tells terminals from everything else; tcgetpgrp and tcsetpgrp read and set the foreground group.",
     "all terminals and settings, all contents of the struct, all descriptors",
     "the layouts of the two structs agree for some settings and disagree for others, and a terminal is needed to see it",
     ["src/termios/tcgetattr.c: tcgetattr", "src/termios/tcsetattr.c: tcsetattr", "src/termios/cfmakeraw.c: cfmakeraw", "src/termios/isatty.c: isatty", "src/termios/tcgetpgrp.c: tcgetpgrp", "src/termios/tcsetpgrp.c: tcsetpgrp", "include/tcgetattr.h", "include/tcsetattr.h", "src/system/ioctl.c: ioctl"])

prop("C86", "sprintf and vsprintf write exactly the text; names of pseudo terminals",
     "sprintf and vsprintf write the rendered text and a NUL, nothing else, and answer its length, whenever the destination has room for these bytes; ptsname_r writes the name of the slave of a pseudo terminal if it fits into the given length and answers ERANGE otherwise without writing beyond it; ptsname answers the name for every terminal, NULL and errno for everything else; grantpt leaves the slave to its user.",
     "all formats and arguments, all destinations, all terminal numbers and lengths",
     "how much is written beyond the text, and what a too small buffer leads to, depends on unbounded texts and on neighbouring memory",
     ["src/output/sprintf.c: sprintf", "src/output/vsprintf.c: vsprintf", "src/termios/pty.c: ptsname_r, ptsname, grantpt"])
prop("C87", "term_width answers the number of columns",
     "term_width answers the number in the environment variable COLUMNS, and 80 if there is none or if it is no proper number.",
     "all environments, all values of the variable",
     "the value comes from outside the program and is not bounded",
     ["src/termios/term_width.c: term_width"])

prop("C88", "The print macros and fputc deliver exactly their text",
     "prints, eprints and fprints write their strings one after the other to standard output, standard error or the given descriptor, print and eprint a single string, the variants ending in l and puts add a newline; nothing reaches any other descriptor and the answer is the number of bytes written, negative after an error. fputc, putc and putchar write one byte and answer it, EOF after an error. writes and its variants write a literal.",
     "all argument lists, all texts, all answers of the kernel, both orders of evaluation",
     "argument lists and texts are unbounded, and the order of evaluation and errors of the kernel are not under the control of a test",
     ["include/prints.h: prints, eprints, fprints, printsl, eprintsl, print, eprint, puts, eputs, writes, ewrites, writesl, ewritesl, fwrites, fwritesl", "include/fputc.h: fputc, putchar, putc"])
prop("C89", "stripblanks and stripblanklines filter exactly the blanks",
     "For every text on standard input stripblanks writes its lines without leading blanks and without the blank lines to standard output, stripblanklines writes the lines that are not blank; nothing is written elsewhere and the whole input is read.",
     "all texts, of any length and with lines of any length, all ways the kernel splits them into reads",
     "texts and lines are unbounded; the fault needs a line that exactly fills the buffer",
     ["tools/stripblanks.c: main", "tools/stripblanklines.c: main"])

prop("C90", "shrinkelf keeps the program and nothing else",
     "The file shrinkelf writes is the same program as its input: same entry point and program headers, all segments with the same contents, addresses and place within a page, and headers mapped by a segment are the new ones; the section table and every byte outside of headers and segments are gone, and the file does not grow. If it fails, all files stay as they were, and no other file is touched in any case.",
     "all executables: any number and order of segments, overlapping, touching or far apart, any sizes; all names",
     "regions, their merging and their displacements depend on arbitrary combinations of segments; the new file must work for each of them",
     ["tools/shrinkelf.c: read_hdrs, compute_regions, compute_disps, modify_hdrs, process_file, main"])

prop("C91", "The groups of the process",
     "initgroups(user,group) makes the supplementary groups of the process exactly the groups of the group file with user as a member, and group, and changes nothing else of the process; it fails, and changes nothing, for unknown users and unprivileged processes. getgroups answers the supplementary groups of the process and their number, also for a list of 0 cells.",
     "all well-formed files, all users and groups, every history of calls, with lookups in the passwd file in between",
     "unbounded files, and two databases whose caches and cut mappings live in the same memory; rights of a process depend on it",
     ["src/userdb/getgroups.c: getgroups", "src/userdb/initgroups.c: initgroups", "src/userdb/getusergroups.c", "src/userdb/userdb_open.c"])

prop("C92", "Decimal text of doubles",
     "dtodec(d,buf,k) writes the decimal text of d, sign, whole part, dot and k decimals, the further ones cut off, to buf, and answers the number of its characters; nothing behind the text is changed except for the rest of nine decimals and a NUL.",
     "all finite doubles with a whole part that fits an int, all k up to 8, all buffers of 24 bytes",
     "2^64 doubles; the decimals come from a chain of roundings whose error has to be bounded for all of them",
     ["src/conversions/dtodec.c: dtodec"])

prop("C93", "Many directory streams at once",
     "A program may hold any number of directory streams among its blocks of memory: each has a position of its own, readdir delivers the records of its directory in order, each record stays unchanged until the next call with the same stream, whatever is done with other streams and blocks; rewinddir starts over. opendir fails exactly when memory, the directory or a descriptor is missing or the kernel refuses, and then nothing is lost; after closedir descriptors and memory are as before. dirfd gives the descriptor of the stream, which no other stream has.",
     "all histories of opendir, readdir, rewinddir, closedir, malloc, free and stores of a correct program, any directories, any number of records the kernel delivers per call, and failing calls",
     "interleavings of any number of streams with the allocator; a leak of a descriptor or a block, or a stream overwriting its neighbour, shows only in long histories",
     ["src/directories/opendir.c: opendir", "src/directories/opendirp.c: opendirp", "src/directories/closedir.c: closedir", "src/directories/readdir.c: readdir", "src/directories/rewinddir.c: rewinddir", "src/directories/dirfd.c: dirfd", "include/dirent.h: DIR"])

prop("C94", "Streams and the descriptors behind them",
     "fopen, fdopen and freopen bind a stream to a file: each open stream has a descriptor of its own, open on the file asked for with the flags of the mode, and keeps it until it is closed or reopened, whatever is done with other streams; they fail exactly when the mode is none, the kernel refuses or (fdopen) the descriptor is not open. freopen keeps the stream, and its descriptor number if the lower ones are in use (stdout stays 1); without a name it keeps the file. When all is closed the descriptors are as at the start.",
     "all histories of fopen, fdopen, freopen, fclose, open, close and uses of streams, all names and modes, any refusals of the kernel",
     "a stream bound to the descriptor of another one, or a leaked descriptor, shows only in certain histories",
     ["src/streams/_fopen.c: _fopen", "src/streams/fopen.c: fopen", "src/streams/fdopen.c: fdopen", "src/streams/freopen.c: freopen", "include/mini_fstream.h: fclose, fileno"])

prop("C95", "Messages that end the program",
     "die, dief and dies write their message to standard error, then the line with the error number (or run /bin/errno with it), and end the program with a status of failure; the _if forms do it exactly when the condition holds. _die takes errno, and ends with -1 when it is not set. error, err, errx and warn write the text of their format to standard error, with a colon and the text of the error number where asked for, end with the status given (error: only if it is not 0), and write nothing elsewhere; when the program goes on, its memory blocks are as before.",
     "all messages, formats of the grammar and arguments, all error numbers and states of the allocator, any earlier output",
     "the output is on standard error of a process that is gone; whether every number leads to a failure status needs all numbers",
     ["src/process/die.c: die, dief, dies, _die, die_if, dief_if, dies_if", "src/process/error.h: error, err, errx, warn", "src/process/exit_errno.c: exit_errno"])

prop("C96", "The start of a program",
     "main gets the number of arguments, the arguments and the environment the kernel has put on the stack. What the library keeps in its globals is as new when main is called, whatever memory contained there before (the globals may be on the stack): malloc and malloc_brk start empty, the standard streams are the descriptors 0, 1 and 2 without flags, errno is 0, getenv finds the environment, no handler is registered, the files of users and groups are read from the first line, rand gives the numbers of srand(1). With vsyscalls, the kernel's entry is taken from the auxiliary vector.",
     "all arguments, environments and auxiliary vectors, all previous contents of the globals and of the arena, all later histories of calls",
     "previous contents of the stack are an accident of the run; a test sees one of them, mostly zeros",
     ["asm/start-linux-x64.c: _start", "src/intern/startup.c: _startup", "src/intern/start_c.c: __start_c", "include/minilib_global.h: minilib_globals"])

prop("C97", "Containers of the macros directory",
     "An array gets the pushed elements in order until its mapping is full; push answers with the element's address, or 0 when full, and writes nothing else. Iterating shows each element once, in order, and then 0; first answers 0 for an empty array. A failing allocation is answered with 0. append of the linked list copies the element behind the list and answers with its address.",
     "all sizes of arrays, all lists of pushed elements, all lists and elements",
     "the outcome depends on the whole history of pushes against the size of the mapping, and on what is mapped at low addresses",
     ["macros/array.c: newarray, getiter, first, current, next, push", "macros/linkedlist.c: newlist, _append"])

prop("C98", "Wrappers of system calls",
     "Every wrapper makes the system call it is named after: the number is the kernel's number for that call, and each parameter of the kernel gets the argument in that position, converted to its type, whatever was in the registers before. creat, mkfifo, wait, waitpid, killpg, recv and fexecve make the calls they stand for.",
     "all 404 generated wrappers and those written by hand, all arguments, all contents of the registers before the call",
     "a register the compiler is not told about has the right value by accident, as long as nothing else needs it; a test sees one compilation",
     ["include/syscall.h: syscall0_ret .. syscall6_ret, REAL_define_syscall, SYSREAL_define_syscall", "include/syscall_stubs.h", "headers/linux_x64/sys/syscall.h", "include/select.h: select", "include/mremap.h: mremap", "include/poll.h: poll", "src/memory/mmap.c: mmap", "src/file/open.c: open", "src/file/creat.c: creat", "src/process/wait.c: wait, waitpid", "src/process/killpg.c: killpg", "src/network/recv.c: recv", "include/fexecve.h: fexecve", "include/mkfifo.h: mkfifo"])

prop("C99", "Short names of errors and signals",
     "short_errstr is defined for every number: it gives the name of each error of the kernel, different names for different numbers, and UNKNOWN exactly for numbers that are no error. The numbers of the header of errors are those of the kernel, and none is missing. sys_signame has the name of each signal at its number.",
     "all int values for short_errstr, all errors and signals of Linux",
     "one shifted entry in a table of 134 changes every name behind it; tests try a few",
     ["include/errstrshort.h: short_errstr", "include/m_errno.h", "src/process/signames.h: sys_signame"])

prop("C100", "Structures of the headers against the records of the kernel",
     "Every item of a record that the kernel exchanges with a process (stat, timeval, termios, pollfd, rusage, utsname, siginfo, sigaction, ifreq, rtentry, socket addresses, seccomp, packet headers ...) is the member of that name of the structure in the headers: whatever values the kernel stored are read back from the members, after any sequence of assignments to members the kernel finds the last assigned values, and nothing outside of the record changes. No structure is smaller than its record, and each has exactly its size. The macros on modes tell the kind of a file for every mode, IFTODT and DTTOIF convert between modes and directory entry types, and the ioctl macros place direction, size, type and number so that different requests get different numbers.",
     "all values of all items, all addresses, all sequences of assignments to members, all modes, all request parts; the layout rules for all declarations",
     "a member at a wrong offset shows only with particular values, and only on the machine where the kernel runs",
     ["headers/common/bits/stat.h: struct stat, S_ISDIR", "headers/common/bits/ioctl.h: _IOC, struct winsize", "headers/common/dirent.h: IFTODT, DTTOIF", "headers/linux_x64/sys/signal.h: struct siginfo, struct sigaction", "headers/linux_x64/resource.h: struct rusage", "include/network.h: struct ifreq, struct iphdr", "include/termio.h: struct termios"])

prop("C101", "Removing comments from source text",
     "The tool that removes comments (the generated single header is piped through it) writes one line for every line read, each a part of the line read, and never accesses memory outside of its arrays. Comments are removed, code is kept: lines that are comments become empty, also over several lines and with continued // comments; what looks like a comment inside of a string stays; a text without slashes is copied except for blanks at line ends.",
     "all texts the tool has room for, all ways the kernel splits the input into pieces; all line contents",
     "the state carried from line to line (open comment, open string, continuation) depends on the whole text before",
     ["tools/removeccomments.c: splittolines", "tools/removeccomments.c: match_cms", "tools/removeccomments.c: match_quote", "tools/removeccomments.c: readfile", "tools/removeccomments.c: printlines", "Makefile: compiled/minilib.h"])

prop("C102", "Constants of the headers mean to the kernel what their names say",
     "Every constant a program takes from the headers and hands to the kernel (requests, options, flags, modes, speeds, system call numbers) has the value the kernel gives that name. A word or-ed together from any set of the flags of a kind, with any choice for its fields (access mode, file type, character size, speed), is taken apart by the kernel into exactly that set and that choice. The bounds in limits.h and stdint.h are the least and largest values of their types.",
     "all 1872 constants of 23 headers that the kernel's headers also define; all sets of flags and all choices of fields of 23 kinds of words; all objects of 35 types",
     "a test passes a few flags; whether two flags share a bit shows only in combinations, of which there are more than 2^20 for one word, and most requests need hardware",
     ["headers/linux_x64/fcntl.h", "headers/linux_x64/mount.h", "headers/common/sys/kbd.h", "headers/common/termios.h", "include/filemodes.h", "include/network.h", "include/globaldefs.h", "headers/linux_x64/sys/socket.h", "headers/linux_x64/sys/syscall.h", "headers/common/elf.h", "headers/linux_x64/bits/limits.h", "headers/common/stdint.h"])

prop("C103", "longjmp returns from the last setjmp",
     "setjmp returns 0 to its caller and writes nothing but the buffer. Whatever the program does afterwards with registers, stack and memory, including further setjmp and longjmp calls with other buffers, longjmp with a buffer goes on where the last setjmp with that buffer returned, with the stack pointer and the preserved registers of its caller, memory as it is at the jump, and the answer val, or 1 if val is 0.",
     "all machine states, all buffers, all sequences of calls of setjmp and longjmp with any number of buffers, and any work in between",
     "a test jumps back once from the state its compiler produced; which registers hold live values differs with every compiler, and only a garbage upper half of a register shows the wrong answer",
     ["asm/jmp-x64.c:setjmp", "asm/jmp-x64.c:longjmp"])


prop("C104", "Colour macros look as they are called",
     "Whatever a terminal showed before, a colour macro written to it shows no character, leaves no unfinished escape sequence, and changes the look of the following text to what its name says: a text colour, a background (with text colour and styles kept), a style (with everything else kept), or the normal look. Of any sequence of macros and texts exactly the texts appear, each in the look announced. The short names stand for the same strings as the long ones.",
     "all 37 macros, all looks of the terminal before them, all sequences of macros and texts of any length",
     "a program cannot see the screen, so tests compare escape sequences with themselves; the effect depends on what was on before, which grows with every combination of styles",
     ["include/ansicolors.h"])

prop("C105", "Packed words come apart again",
     "What the packing macros put together, the matching macros take apart: binding and type of ELF symbols, symbol and type of 32 and 64 bit relocations, for all values that fit, and every packed word is what its parts pack to. The tags of the dynamic section get positions inside of their group, no two the same. The service octet and the option octet of IP are the sum of their parts, without a bit in two of them; the named code points and options have the class, precedence and number of the RFCs. The control character of a letter is its place in the alphabet.",
     "all words of 8, 32 and 64 bits; all named tags of the dynamic section; all octets; all letters",
     "2^64 words; a wrong mask or shift shows only with symbol numbers or types that small programs never have",
     ["headers/common/elf.h:ELF32_ST_INFO", "headers/common/elf.h:ELF32_R_INFO", "headers/common/elf.h:ELF64_R_INFO", "headers/common/elf.h:DT_EXTRATAGIDX", "include/network.h:IPTOS_DSCP", "include/network.h:IPOPT_NUMBER", "headers/linux_x64/sys/ttydefaults.h:CTRL"])

prop("C106", "Switching functions on switches on everything they need",
     "A program chooses the functions it wants by defining one macro for each. Whatever set it defines, minilib.h defines in addition everything the //+depends tags of the sources demand for them, over any number of steps, and nothing else. With every function switched on, the definitions of all functions it calls, directly or not, are compiled in too.",
     "all sets of switches (all 2^296 of the names used, and any others); all chains of dependencies and calls",
     "the test programs use a few fixed sets; that two passes over the groups of the header are enough depends on the order of the groups and on the longest chain, for each of the sets",
     ["minilib.h:mini_printf", "minilib.c:mini_malloc", "scripts/genheaders.pl:depends", "src/directories/opendir.c:depends", "src/output/vsprintf.c:depends"])

prop("C107", "The engine with brackets and repetitions matches what it documents",
     "match_ext2 answers yes exactly for the texts that the pattern describes, with a character class, '!', '*', '+', '?', '%', '#', '$', \"{nX}\", \"{*X}\", \"{+X}\" and \"(X)\" read as documented. On patterns without the additional syntax it answers like match_ext, makes the same callbacks and fills in the struct alike. The callback is called only for a match. It reads nothing behind the ends, and writes nothing to the standard output.",
     "all texts and patterns, callbacks and structs",
     "the engine goes back and forth over text and pattern, recursing for every '*', bracket and brace; a finite set of patterns says nothing about the others, and output while matching is not looked at by tests of the answer",
     ["src/match/match_ext2.c:match_ext2", "src/match/match_ext2.c:_match_ext2"])

prop("C108", "elftrunc cuts a static executable off behind its last loaded segment",
     "For every static ELF file, of 32 or 64 bits, elftrunc writes a file NAME.trunc that ends where the last loaded segment ends and is the same byte for byte up to there, apart from the fields of the header that tell about sections, which are zero. The table of program headers is kept. With a second argument the new file gets that name instead. Files that need the dynamic linker, and files that are not ELF, are refused and nothing is written. A file that is shorter than its segments is refused. The source and all other files stay as they are, and what happens depends on nothing but the files and arguments.",
     "all contents of files, all numbers and positions of segments, all file names, both classes of ELF files",
     "the loops over program headers and blocks run as often as the file says, with lengths in unsigned arithmetic; a few binaries of one linker all have the same layout",
     ["old/tools/elftrunc.c:trunc32", "old/tools/elftrunc.c:trunc64", "old/tools/elftrunc.c:main"])


prop("C109", "A stream over a file is a file with a cursor",
     "For every program of calls of fgetc, ungetc, fread, fwrite, ftell, fgetpos, fsetpos, fseek and rewind on a stream over a regular file, reading delivers the bytes at the cursor and moves it on, writing replaces the bytes at the cursor and lengthens the file where needed, ftell tells the cursor (a character pushed back counts as not yet read), and fseek, fsetpos and rewind move the cursor, forget the character pushed back and answer 0. What was written is read back after rewind. The descriptor of the stream never changes.",
     "all sequences of calls, all contents and lengths of the file, all offsets and origins, all positions of buffers and sizes of items",
     "the answers depend on the whole history of calls through the offset kept by the kernel and the bits kept in the FILE; tests look at a few histories with small offsets",
     ["include/mini_fstream.h:ftell", "include/mini_fstream.h:fseek", "include/mini_fstream.h:fsetpos", "include/mini_fstream.h:rewind", "include/mini_fstream.h:fread", "include/mini_fstream.h:fwrite", "src/streams/fgetc.c:fgetc", "src/streams/ungetc.c:ungetc", "include/lseek.h:lseek"])


prop("C110", "Taking #if 0 parts out of the single header changes nothing for the compiler",
     "For every text with well-formed conditional directives, the script used to build the single header terminates, its output has the same lines included by the preprocessor, whatever the other conditions and the macros defined before are, it contains no #if 0 any more and no line that is new or moved, and a text without #if 0 stays as it is.",
     "all texts, all nestings of conditions, all values of conditions and macros",
     "whether a part is included depends on all conditions around it and on the macros defined so far; compiling the header once looks at one configuration",
     ["scripts/stripundefs.pl", "Makefile:compiled/minilib.h"])
prop("C111", "Filling a template changes the marked place only",
     "For every file with marked places and every text, the template script puts the text between the start and the end mark, instead of what was there or in front of it with -insert, and leaves all other lines as they are. Filling again replaces the text. A file without marks, or with marks that do not fit, stays as it is. Every place of the name is filled.",
     "all files, texts, names of places, numbers and positions of places, with and without -insert",
     "the script rewrites its own input file line by line with state carried between lines; a few runs look at a few files with proper marks",
     ["scripts/template.pl", "scripts/template.pm:template", "Makefile:minimake"])

prop("C112", "The single header has every included file once",
     "For every source and every set of files, also files that include each other, the script that builds the single header terminates, and its output consists of the lines (apart from #include) of the source and of all files included by it, directly or by others, each file once and in the place of the first #include that names it.",
     "all sources and files, all graphs of includes, all numbers and depths of includes",
     "which file is left out depends on a counter changed by all includes before; building the header once looks at one tree of files",
     ["scripts/combinesources.pl:slurpfile", "Makefile:compiled/minilib.h"])

prop("C113", "The configuration made for a source names all library functions it calls",
     "For every source, minimake --genconf makes a configuration that names each library function the source calls, wherever and however often it is called, each once, and no function it does not call; with this configuration everything these functions need is compiled.",
     "all sources (sequences of tokens), all positions and nestings of calls, all functions of the library",
     "whether a call is found depends on the calls around it and on all names of two generated lists; compiling a few programs looks at a few combinations",
     ["minimake:genconfig", "minilib.genconf.h", "scripts/genconfig.sh", "minilib.h"])

prop("C114", "A configuration switches on exactly the functions it lists",
     "For every configuration file, a function of the library is switched on if and only if the file lists it, as mini_name or in a compile line, however the names of the list are separated by commas and blanks; a name alone is its own value; unknown names are reported and do not change the rest. The configuration made for a source is read without errors and switches on everything the source's calls need.",
     "all configuration files (sequences of command lines), all lists of names with any separators, all functions of the library, all sources",
     "the names are split twice by the shell and looked up among 700 generated functions; tests use a few configurations written one way",
     ["scripts/genconfig.sh:compile", "scripts/genconfig.sh:mini_define", "minimake:dumpconfig", "minimake:genconfig"])

prop("C115", "An assembler file turned into C is assembled to the same statements",
     "For every assembler file, the C file made of it is one in which the compiler hands to the assembler exactly the statements of the source, in order, without the exports and the labels of exported names; every exported name is a C function, and the braces of the C file match.",
     "all assembler files (sequences of lines with any blanks and comments), all exported names and labels",
     "lines are taken apart by unanchored patterns and put into C strings without quoting; a test shows one file whose lines happen to match as meant",
     ["scripts/convertasm.pl", "asm/start-linux-x64.S"])

prop("C116", "The listing of conditional directives shows which belong together",
     "For every well-formed source, the listing has every directive of conditional inclusion once, in order, with its line number and the number of conditions open at it; the condition to which a listed line belongs is the last one listed up to it with the same depth.",
     "all well-formed C sources (sequences of lines), any depth of nesting",
     "the depth is a counter that any overlooked directive shifts for the rest of the file; a test shows a few nestings",
     ["scripts/ifdefs.pl"])

prop("C117", "The generated header switches on what a function depends on, whatever the dependencies and the order",
     "For all dependency tags in the sources and every order in which the generator goes through the functions, the header it writes switches on, for every set of functions chosen, exactly these and what they depend on over any number of steps.",
     "all dependency relations, all orders of the functions, all sets of functions switched on",
     "the order is that of a hash and changes from run to run; a test sees one header of one run",
     ["scripts/genheaders.pl:printdepend", "minilib.h"])
prop("C118", "The documentation of a function names what it switches on",
     "For all dependency tags in the sources without cycles, the list of names behind Defines: in the documentation of a function has exactly the functions it switches on, over any number of steps; the generator ends.",
     "all dependency relations, all functions",
     "the list is made by a recursion over the tags; a test compares a few entries",
     ["scripts/genheaders.pl:rdep", "doc/minilib.txt"])

prop("C119", "A tagged function is declared in the header by its prototype and under its name",
     "For every function definition behind a tag //+def or //+inline, with any type, name, parameters and body, the generated header registers the function under its own name (or the one in the tag) and declares it by its prototype and a semicolon. A macro behind a tag //+macro, in the line of the tag or in the next one, is registered under its name.",
     "all definitions: types, numbers of stars, names, parameters, bodies in the same line, and all tags",
     "the name is found by a greedy regular expression over the line; a test tries a few definitions",
     ["scripts/genheaders.pl:def"])

prop("C120", "The documentation of a function has the text of its comment",
     "For every comment behind a tag //+doc, with any number of lines and any text in them, the generated documentation shows the comment line by line, indented, without anything else, and the next tag is read behind it.",
     "all comments: first lines, numbers of lines, texts, and all that follows them",
     "the text goes through several regular expressions, a default value and a split that drops fields; a test sees a few comments",
     ["scripts/genheaders.pl:doc", "doc/minilib.txt", "src/memory/malloc.c"])

prop("C121", "Generated headers may be included in any order and any number of times",
     "For all sets of generated headers, with any names and declarations, and any sequence of includes of them, each header included brings its declarations (and its sources with mini_INCLUDESRC) exactly once, where it comes first.",
     "all names of headers, all declarations and sources, all sequences of includes, the switch on or off",
     "the sequences and names are without bound; a test includes a few headers",
     ["scripts/genheaders.pl:headerfh"])

prop("C122", "Declarations are shown without specifiers and attributes, and otherwise as they are",
     "For every declaration, with any words, static, inline, volatile and attributes in any order, the text in the reference and in the list of functions is the declaration without the specifiers and the attributes, all the rest unchanged.",
     "all declarations: numbers and orders of words, specifiers and attributes, all names and contents of attributes",
     "the text is made by one global substitution; a test sees a few declarations",
     ["scripts/genheaders.pl:docdef", "test/generated/functions.txt"])

prop("C123", "System calls are shown in the reference by their names and parameters",
     "For every definition of a system call, with any name, number of parameters, parameters and blanks, the reference lists the call under its name and shows name(parameters), not the macro with the number that defines it.",
     "all definitions: names, numbers, parameter lists, blanks around the number",
     "the text is made by a substitution with a greedy pattern and backtracking; a test sees a few definitions",
     ["scripts/genheaders.pl:DEF_syscall", "doc/minilib.txt"])

prop("C124", "Every function is listed in one header: the one of the standard, or the one of its tag",
     "For all source files, every tagged function is listed in a header: a function of the standard in the header of the standard, any other in the one of the last tag //+header in its file, without a tag in mini_syscalls or mini_addons.h; and in no other header.",
     "all sequences of files, tags and definitions, all lists of standard functions",
     "the header depends on tags anywhere before in the file and on definitions in all the files read before; a test tries a few files",
     ["scripts/genheaders.pl:headerhash", "scripts/cref.pm", "doc/minilib.txt"])

if __name__ == "__main__":
    here = os.path.dirname(os.path.abspath(__file__))
    with open(os.path.join(here, "..", "properties.jsonl"), "w") as f:
        for p in P:
            f.write(json.dumps(p, ensure_ascii=False) + "\n")
    print(len(P), "properties")

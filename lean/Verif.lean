import Verif.C.Double
import Verif.C.Int
import Verif.C.Mem
import Verif.C.Res
import Verif.C.Word
import Verif.Spec.Abi
import Verif.Spec.Atexit
import Verif.Spec.Brk
import Verif.Spec.Ccomments
import Verif.Spec.Combine
import Verif.Spec.Confsh
import Verif.Spec.Constants
import Verif.Spec.Convertasm
import Verif.Spec.Deftag
import Verif.Spec.Dependgen
import Verif.Spec.Dir
import Verif.Spec.Docdef
import Verif.Spec.Docdep
import Verif.Spec.Doctag
import Verif.Spec.Double
import Verif.Spec.Elftrunc
import Verif.Spec.Env
import Verif.Spec.Exec
import Verif.Spec.FileCursor
import Verif.Spec.Genconf
import Verif.Spec.Getopt
import Verif.Spec.Groups
import Verif.Spec.Guards
import Verif.Spec.Headerof
import Verif.Spec.Heap
import Verif.Spec.Ifdefs
import Verif.Spec.Kmalloc
import Verif.Spec.Linux
import Verif.Spec.Match
import Verif.Spec.MatchExt
import Verif.Spec.Num
import Verif.Spec.Opendir
import Verif.Spec.Output
import Verif.Spec.Parseopts
import Verif.Spec.Path
import Verif.Spec.Preproc
import Verif.Spec.Printf
import Verif.Spec.Regetopt
import Verif.Spec.Reopen
import Verif.Spec.Scandir
import Verif.Spec.Shrinkelf
import Verif.Spec.Sort
import Verif.Spec.Str
import Verif.Spec.Streams
import Verif.Spec.Sysdoc
import Verif.Spec.Template
import Verif.Spec.Termios
import Verif.Spec.Userdb
import Verif.Model.Atexit
import Verif.Model.Bits
import Verif.Model.Brk
import Verif.Model.Ccomments
import Verif.Model.Colors
import Verif.Model.Combine
import Verif.Model.Confsh
import Verif.Model.Constants
import Verif.Model.Container
import Verif.Model.Conv
import Verif.Model.Convertasm
import Verif.Model.Deftag
import Verif.Model.Dependgen
import Verif.Model.Die
import Verif.Model.Dir
import Verif.Model.Docdef
import Verif.Model.Docdep
import Verif.Model.Doctag
import Verif.Model.Dtodec
import Verif.Model.Elftrunc
import Verif.Model.Endian
import Verif.Model.Env
import Verif.Model.ErrTable
import Verif.Model.Exec
import Verif.Model.Fdtable
import Verif.Model.FileCursor
import Verif.Model.Genconf
import Verif.Model.Getchar
import Verif.Model.Getopt
import Verif.Model.Groups
import Verif.Model.Guards
import Verif.Model.Headerof
import Verif.Model.Ifdefs
import Verif.Model.Jmp
import Verif.Model.Kmalloc
import Verif.Model.Ksort
import Verif.Model.Layout
import Verif.Model.Malloc
import Verif.Model.MapProt
import Verif.Model.Match
import Verif.Model.MatchExt
import Verif.Model.MatchExt2
import Verif.Model.Math
import Verif.Model.MemFn
import Verif.Model.Network
import Verif.Model.Opendir
import Verif.Model.Output
import Verif.Model.Pack
import Verif.Model.Parseopts
import Verif.Model.Path
import Verif.Model.Printf
import Verif.Model.Prints
import Verif.Model.Process
import Verif.Model.Regetopt
import Verif.Model.Reopen
import Verif.Model.Scandir
import Verif.Model.Shortnames
import Verif.Model.Shrinkelf
import Verif.Model.Sort
import Verif.Model.Sprintf
import Verif.Model.Start
import Verif.Model.Str
import Verif.Model.Streams
import Verif.Model.Stripundefs
import Verif.Model.Strtol
import Verif.Model.Switches
import Verif.Model.Syscall
import Verif.Model.Sysdoc
import Verif.Model.Template
import Verif.Model.Termios
import Verif.Model.Timespec
import Verif.Model.Tools
import Verif.Model.Userdb
import Verif.Model.Wrappers
import Verif.Lemmas.Atoi
import Verif.Lemmas.Brk
import Verif.Lemmas.Ccomments
import Verif.Lemmas.CcommentsDoc
import Verif.Lemmas.CcommentsRun
import Verif.Lemmas.Conv
import Verif.Lemmas.ConvBase
import Verif.Lemmas.Elftrunc
import Verif.Lemmas.Fdtable
import Verif.Lemmas.Getopt
import Verif.Lemmas.Group
import Verif.Lemmas.GroupLoop
import Verif.Lemmas.Groups
import Verif.Lemmas.Heap
import Verif.Lemmas.HeapFns
import Verif.Lemmas.Itobin
import Verif.Lemmas.Kmalloc
import Verif.Lemmas.Ksort
import Verif.Lemmas.KsortHeap
import Verif.Lemmas.KsortMerge
import Verif.Lemmas.KsortPart
import Verif.Lemmas.Layout
import Verif.Lemmas.Malloc
import Verif.Lemmas.Match
import Verif.Lemmas.MatchExt
import Verif.Lemmas.MatchExt2
import Verif.Lemmas.MatchExt2Count
import Verif.Lemmas.MemFn
import Verif.Lemmas.Num
import Verif.Lemmas.Opendir
import Verif.Lemmas.Printf
import Verif.Lemmas.PrintfConv
import Verif.Lemmas.Radix
import Verif.Lemmas.Regetopt
import Verif.Lemmas.Render
import Verif.Lemmas.Reopen
import Verif.Lemmas.Scandir
import Verif.Lemmas.Shrinkelf
import Verif.Lemmas.Sort
import Verif.Lemmas.Str
import Verif.Lemmas.StrCmp
import Verif.Lemmas.Streams
import Verif.Lemmas.Switches
import Verif.Lemmas.Termios
import Verif.Lemmas.Ultodec
import Verif.Lemmas.Userdb
import Verif.Props.Atexit
import Verif.Props.Bits
import Verif.Props.Brk
import Verif.Props.Ccomments
import Verif.Props.Colors
import Verif.Props.Combine
import Verif.Props.Confsh
import Verif.Props.Constants
import Verif.Props.Container
import Verif.Props.Conv
import Verif.Props.Convertasm
import Verif.Props.Deftag
import Verif.Props.Dependgen
import Verif.Props.Die
import Verif.Props.Dir
import Verif.Props.Docdef
import Verif.Props.Docdep
import Verif.Props.Doctag
import Verif.Props.Dtodec
import Verif.Props.Elftrunc
import Verif.Props.Endian
import Verif.Props.Env
import Verif.Props.Exec
import Verif.Props.FileCursor
import Verif.Props.Genconf
import Verif.Props.Getopt
import Verif.Props.Group
import Verif.Props.Groups
import Verif.Props.Guards
import Verif.Props.Headerof
import Verif.Props.HeapFns
import Verif.Props.Ifdefs
import Verif.Props.Itobin
import Verif.Props.Jmp
import Verif.Props.Kmalloc
import Verif.Props.Ksort
import Verif.Props.Layout
import Verif.Props.Malloc
import Verif.Props.MapProt
import Verif.Props.Match
import Verif.Props.MatchExt
import Verif.Props.MatchExt2
import Verif.Props.Math
import Verif.Props.MemFn
import Verif.Props.Network
import Verif.Props.Opendir
import Verif.Props.Output
import Verif.Props.Pack
import Verif.Props.Parseopts
import Verif.Props.Path
import Verif.Props.Printf
import Verif.Props.PrintfDbl
import Verif.Props.Prints
import Verif.Props.Process
import Verif.Props.Radix
import Verif.Props.Regetopt
import Verif.Props.Reopen
import Verif.Props.Scandir
import Verif.Props.Shortnames
import Verif.Props.Shrinkelf
import Verif.Props.Sort
import Verif.Props.Sprintf
import Verif.Props.Start
import Verif.Props.Str
import Verif.Props.StreamErr
import Verif.Props.StreamTable
import Verif.Props.Streams
import Verif.Props.Stripundefs
import Verif.Props.Strtol
import Verif.Props.Switches
import Verif.Props.Syscall
import Verif.Props.Sysdoc
import Verif.Props.Template
import Verif.Props.Termios
import Verif.Props.Timespec
import Verif.Props.Tools
import Verif.Props.Userdb
import Verif.Props.Wrappers

import Verif.C.Mem
/-
The user database as a text: lines of colon separated fields, and what a reader of it answers.
-/

set_option autoImplicit false

namespace Spec

/-- The value of a text of decimal digits. -/
def decValue (l : List Byte) : Nat := l.foldl (fun n b => 10 * n + (b.toNat - 48)) 0

/-- A decimal digit. -/
def IsDigit (b : Byte) : Prop := 48 ≤ b.toNat ∧ b.toNat ≤ 57

instance (b : Byte) : Decidable (IsDigit b) := inferInstanceAs (Decidable (_ ∧ _))

/-- A field has no NUL, no newline and no colon. -/
def Field (l : List Byte) : Prop := ∀ b ∈ l, b ≠ 0#8 ∧ b ≠ 10#8 ∧ b ≠ 58#8

instance (l : List Byte) : Decidable (Field l) := inferInstanceAs (Decidable (∀ _ ∈ _, _))

/-- A number that fits into an `int`. -/
def Number (l : List Byte) : Prop := (∀ b ∈ l, IsDigit b) ∧ decValue l ≤ 2147483647

instance (l : List Byte) : Decidable (Number l) := inferInstanceAs (Decidable (_ ∧ _))

/-- A line of /etc/passwd. -/
structure PwLine where
  name : List Byte
  passwd : List Byte
  uid : List Byte
  gid : List Byte
  gecos : List Byte
  dir : List Byte
  shell : List Byte
deriving DecidableEq

/-- The fields in their order. -/
def PwLine.fields (l : PwLine) : List (List Byte) := [l.name, l.passwd, l.uid, l.gid, l.gecos, l.dir, l.shell]

/-- The fields, a colon between them, and a newline. -/
def lineText : List (List Byte) → List Byte
  | [] => []
  | [f] => f ++ [10#8]
  | f :: g :: fs => f ++ [58#8] ++ lineText (g :: fs)

/-- The text of the file. -/
def pwText (ls : List PwLine) : List Byte := ls.flatMap (fun l => lineText l.fields)

/-- A well-formed line: clean fields, a name, and numbers. -/
def PwLine.Good (l : PwLine) : Prop :=
  (∀ f ∈ l.fields, Field f) ∧ l.name ≠ [] ∧ Number l.uid ∧ Number l.gid

instance (l : PwLine) : Decidable l.Good := inferInstanceAs (Decidable (_ ∧ _))

/-- A call of the passwd functions; a name is given by its address and its text. -/
inductive PwOp where
  | rewind
  | next
  | nam (p : Nat) (name : List Byte)
  | uid (n : Nat)

/-- What a reader of the file remembers: whether it was opened, the number of lines read one after another, and the last entry
that was found. -/
structure PwMind where
  opened : Bool
  pos : Nat
  last : Option PwLine

/-- The first line with a property. -/
def lookup (ls : List PwLine) (P : PwLine → Bool) : Option PwLine := ls.find? P

/-- The answer to a lookup: the last entry, if it is one, else the first line. -/
def cached (ls : List PwLine) (last : Option PwLine) (P : PwLine → Bool) : Option PwLine :=
  match last with
  | some e => if P e then some e else ls.find? P
  | none => ls.find? P

/-- The answer of a call. -/
def pwAnswer (ls : List PwLine) (k : PwMind) : PwOp → Option PwLine
  | .rewind => none
  | .next => ls[if k.opened then k.pos else 0]?
  | .nam _ name => cached ls k.last (fun e => e.name = name)
  | .uid n => cached ls k.last (fun e => decValue e.uid = n)

/-- The reader after a call. -/
def pwNext (ls : List PwLine) (k : PwMind) (op : PwOp) : PwMind :=
  match op with
  | .rewind => { k with pos := 0 }
  | .next =>
    { opened := true
      pos := if (pwAnswer ls k op).isSome then (if k.opened then k.pos else 0) + 1 else if k.opened then k.pos else 0
      last := (pwAnswer ls k op).or k.last }
  | _ =>
    { opened := true
      pos := if k.opened then k.pos else 0
      last := (pwAnswer ls k op).or k.last }

/-- The answers to a list of calls. -/
def pwAnswers (ls : List PwLine) : PwMind → List PwOp → List (Option PwLine)
  | _, [] => []
  | k, op :: ops => pwAnswer ls k op :: pwAnswers ls (pwNext ls k op) ops

/-- No lookup of a name in an opened file before any entry was found. -/
def pwSafeOp (k : PwMind) : PwOp → Prop
  | .nam _ _ => k.opened = true → k.last.isSome = true
  | _ => True

/-- The same for a list of calls. -/
def pwSafe (ls : List PwLine) : PwMind → List PwOp → Prop
  | _, [] => True
  | k, op :: ops => pwSafeOp k op ∧ pwSafe ls (pwNext ls k op) ops

/-- The answers of a reader without memory of the last entry: lookups give the first line. -/
def plainAnswer (ls : List PwLine) (opened : Bool) (pos : Nat) : PwOp → Option PwLine
  | .rewind => none
  | .next => ls[if opened then pos else 0]?
  | .nam _ name => ls.find? (fun e => e.name = name)
  | .uid n => ls.find? (fun e => decValue e.uid = n)

/-- The place of a reader after a call. -/
def plainPos (ls : List PwLine) (opened : Bool) (pos : Nat) : PwOp → Nat
  | .rewind => 0
  | .next => if (ls[if opened then pos else 0]?).isSome then (if opened then pos else 0) + 1 else if opened then pos else 0
  | _ => if opened then pos else 0

/-- Is the file open after a call? -/
def plainOpened (opened : Bool) : PwOp → Bool
  | .rewind => opened
  | _ => true

/-- The answers to a list of calls, of a reader without memory of the last entry. -/
def plainAnswers (ls : List PwLine) : Bool → Nat → List PwOp → List (Option PwLine)
  | _, _, [] => []
  | opened, pos, op :: ops =>
    plainAnswer ls opened pos op :: plainAnswers ls (plainOpened opened op) (plainPos ls opened pos op) ops

/-- The names are pairwise different, and so are the numbers. -/
def PwDistinct (ls : List PwLine) : Prop :=
  ∀ e ∈ ls, ∀ e' ∈ ls, (e.name = e'.name → e = e') ∧ (decValue e.uid = decValue e'.uid → e = e')

/-! ### groups -/

/-- A line of /etc/group. -/
structure GrLine where
  name : List Byte
  passwd : List Byte
  gid : List Byte
  members : List (List Byte)
deriving DecidableEq

/-- The texts with a comma between them. -/
def commas : List (List Byte) → List Byte
  | [] => []
  | [f] => f
  | f :: g :: fs => f ++ [44#8] ++ commas (g :: fs)

/-- The line as text. -/
def GrLine.text (l : GrLine) : List Byte := lineText [l.name, l.passwd, l.gid, commas l.members]

/-- The text of the file. -/
def grText (ls : List GrLine) : List Byte := ls.flatMap (·.text)

/-- A text without NUL, newline, colon and comma. -/
def Word (l : List Byte) : Prop := ∀ b ∈ l, b ≠ 0#8 ∧ b ≠ 10#8 ∧ b ≠ 58#8 ∧ b ≠ 44#8

instance (l : List Byte) : Decidable (Word l) := inferInstanceAs (Decidable (∀ _ ∈ _, _))

/-- A well-formed line with at least one and at most 63 members. -/
def GrLine.Good (l : GrLine) : Prop :=
  Word l.name ∧ l.name ≠ [] ∧ Word l.passwd ∧ Number l.gid ∧ l.members ≠ [] ∧ (∀ f ∈ l.members, Word f) ∧ l.members.length < 64

instance (l : GrLine) : Decidable l.Good := inferInstanceAs (Decidable (_ ∧ _))

/-- A call of the group functions. -/
inductive GrOp where
  | rewind
  | next
  | nam (p : Nat) (name : List Byte)
  | gid (n : Nat)

/-- What a reader remembers: was the file opened, the number of the next line, and the last line that was read. -/
structure GrMind where
  opened : Bool
  pos : Nat
  last : Option GrLine

/-- Read the lines `rest`, the first of which is number `k`, up to the first with the property. -/
def grSearch (P : GrLine → Bool) : Nat → Option GrLine → List GrLine → Option GrLine × Nat × Option GrLine
  | k, last, [] => (none, k, last)
  | k, _, l :: rest => if P l then (some l, k + 1, some l) else grSearch P (k + 1) (some l) rest

/-- A lookup: the last line, if it is the one, else a search from the first line on. -/
def grLookup (ls : List GrLine) (k : GrMind) (P : GrLine → Bool) : Option GrLine × GrMind :=
  if k.opened = true ∧ (k.last.any P) = true then (k.last, k)
  else
    let r := grSearch P 0 k.last ls
    (r.1, { opened := true, pos := r.2.1, last := r.2.2 })

/-- The answer of a call, and the reader afterwards. -/
def grCall (ls : List GrLine) (k : GrMind) : GrOp → Option GrLine × GrMind
  | .rewind => (none, { k with pos := 0 })
  | .next =>
    let pos := if k.opened then k.pos else 0
    match ls[pos]? with
    | none => (none, { opened := true, pos := pos, last := k.last })
    | some l => (some l, { opened := true, pos := pos + 1, last := some l })
  | .nam _ name => grLookup ls k (fun l => l.name = name)
  | .gid n => grLookup ls k (fun l => decValue l.gid = n)

/-- The answers to a list of calls. -/
def grAnswers (ls : List GrLine) : GrMind → List GrOp → List (Option GrLine)
  | _, [] => []
  | k, op :: ops => (grCall ls k op).1 :: grAnswers ls (grCall ls k op).2 ops

/-- The groups that have the user as a member. -/
def groupsOf (ls : List GrLine) (user : List Byte) : List Nat :=
  (ls.filter (fun l => user ∈ l.members)).map (fun l => decValue l.gid)

end Spec

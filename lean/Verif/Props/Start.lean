import Verif.Model.Start
import Verif.Props.Malloc
import Verif.Props.Brk
import Verif.Props.Env
import Verif.Props.Atexit
import Verif.Props.Math
import Verif.Props.Group
import Verif.Props.Userdb
import Verif.Props.StreamTable
/-
C96: the start of a program.
-/

set_option autoImplicit false

namespace Minilib
open Mem Spec

/-! ### arguments and environment -/

/-- What the kernel puts on the stack: the number of arguments, the arguments, NULL, the environment, NULL, and the auxiliary
vector. -/
def _root_.Spec.startStack (args env aux : List Nat) : List Nat := args.length :: (args ++ 0 :: (env ++ 0 :: aux))

/-- C96: `main` gets the arguments and the environment the kernel has put on the stack. -/
theorem C96_arguments (sp : Nat) (args env aux : List Nat) :
    ∃ argv envp, startArgs sp (startStack args env aux) = .ok (args.length, argv, envp) ∧
      (∃ r, stackFrom sp (startStack args env aux) argv = args ++ 0 :: r) ∧
      stackFrom sp (startStack args env aux) envp = env ++ 0 :: aux := by
  refine ⟨_, _, rfl, ⟨env ++ 0 :: aux, ?_⟩, ?_⟩
  · unfold stackFrom startStack
    rw [show (sp + 8 - sp) / 8 = 1 by omega]
    rfl
  · unfold stackFrom startStack
    rw [show (sp + 8 + args.length * 8 + 8 - sp) / 8 = (args.length + 1) + 1 by omega, List.drop_succ_cons, List.drop_append,
      List.drop_of_length_le (by omega), show args.length + 1 - args.length = 1 by omega]
    rfl

example : ∃ argv envp, startArgs 4096 (startStack [16, 32] [48] [33, 7, 0, 0]) = .ok (2, argv, envp) ∧
    stackFrom 4096 (startStack [16, 32] [48] [33, 7, 0, 0]) envp = [48, 0, 33, 7, 0, 0] := by
  obtain ⟨a, e, h1, -, h3⟩ := C96_arguments 4096 [16, 32] [48] [33, 7, 0, 0]
  exact ⟨a, e, h1, h3⟩

/-- C96, full statement for 32 bits: `main` gets the arguments and the environment the kernel has put on the stack. -/
def C96_x32_full : Prop :=
  ∀ (sp : Nat) (args env aux : List Nat), args ≠ [] →
    ∃ argv envp, startArgs32 sp (startStack args env aux) = .ok (args.length, argv, envp) ∧
      (∃ r, wordsFrom 4 sp (startStack args env aux) argv = args ++ 0 :: r) ∧
      wordsFrom 4 sp (startStack args env aux) envp = env ++ 0 :: aux

/-- C96, 32 bits without a frame, what happens for every stack: the number of arguments `main` gets is the address of the first argument, the arguments are
those behind it, and the environment misses its first two words. -/
theorem C96_x32_shifted (sp a : Nat) (args env aux : List Nat) :
    ∃ argv envp, startArgs32 sp (startStack (a :: args) env aux) = .ok (a, argv, envp) ∧
      (∃ r, wordsFrom 4 sp (startStack (a :: args) env aux) argv = args ++ 0 :: r) ∧
      wordsFrom 4 sp (startStack (a :: args) env aux) envp = (env ++ 0 :: aux).drop 2 := by
  refine ⟨_, _, rfl, ⟨env ++ 0 :: aux, ?_⟩, ?_⟩
  · unfold wordsFrom startStack
    rw [show (sp + 8 - sp) / 4 = 2 by omega]
    rfl
  · unfold wordsFrom startStack
    rw [show (sp + 4 + 12 + (a :: args).length * 4 - sp) / 4 = (a :: args).length + 3 + 1 by omega, List.drop_succ_cons, List.drop_append,
      List.drop_of_length_le (by omega), show (a :: args).length + 3 - (a :: args).length = 2 + 1 by omega]
    rfl

/-- C96 (partial: 32 bits, `_start` compiled with a frame and `%ebp` zero at the start): the arguments are right, and the environment is when there is
exactly one argument. -/
theorem C96_x32_frame_partial (sp : Nat) (h4 : 4 ≤ sp) (args env aux : List Nat) :
    ∃ argv envp, startArgs32 (sp - 4) (0 :: startStack args env aux) = .ok (args.length, argv, envp) ∧
      (∃ r, wordsFrom 4 sp (startStack args env aux) argv = args ++ 0 :: r) ∧
      (args.length = 1 → wordsFrom 4 sp (startStack args env aux) envp = env ++ 0 :: aux) := by
  refine ⟨_, _, rfl, ⟨env ++ 0 :: aux, ?_⟩, ?_⟩
  · unfold wordsFrom startStack
    rw [show (sp - 4 + 8 - sp) / 4 = 1 by omega]
    rfl
  · intro h
    obtain ⟨a, rfl⟩ := List.length_eq_one_iff.1 h
    unfold wordsFrom startStack
    rw [show (sp - 4 + 4 + 12 + 0 * 4 - sp) / 4 = 3 by omega]
    rfl

/-- C96, 32 bits with a frame: with two arguments or more the environment `main` gets begins with the third word of the arguments. -/
theorem C96_x32_frame_refuted (sp : Nat) (h4 : 4 ≤ sp) (a b : Nat) (args env aux : List Nat) :
    ∃ argv envp, startArgs32 (sp - 4) (0 :: startStack (a :: b :: args) env aux) = .ok ((a :: b :: args).length, argv, envp) ∧
      wordsFrom 4 sp (startStack (a :: b :: args) env aux) envp = args ++ 0 :: (env ++ 0 :: aux) := by
  refine ⟨_, _, rfl, ?_⟩
  unfold wordsFrom startStack
  rw [show (sp - 4 + 4 + 12 + 0 * 4 - sp) / 4 = 3 by omega]
  rfl

/-- C96 fails for 32 bits. -/
theorem C96_x32_refuted : ¬ C96_x32_full := by
  intro h
  obtain ⟨_, _, h1, _⟩ := h 4096 [16] [] [] (by decide)
  obtain ⟨_, _, h2, _⟩ := C96_x32_shifted 4096 16 [] [] []
  rw [h2] at h1
  simp at h1

/-- C96: the kernel aligns the stack at 16 bytes, and the calling convention asks for that at every call: at the call of `_startup` (or `main`)
it never is. -/
theorem C96_aligned_refuted {sp : Nat} (h : sp % 16 = 0) : startSp sp % 16 = 8 := by unfold startSp; omega

/-- The pointers `env` point to the variables `vs`. -/
def _root_.Spec.EnvGiven (m : Mem) : List Nat → List Var → Prop
  | [], [] => True
  | p :: ps, x :: vs => p ≠ 0 ∧ m.IsStr p (x.1 ++ 61#8 :: x.2) ∧ 61#8 ∉ x.1 ∧ EnvGiven m ps vs
  | _, _ => False

theorem envGiven_view {m : Mem} : ∀ {env : List Nat} {vs : List Var} (aux : List Nat), EnvGiven m env vs → EnvView m (env ++ 0 :: aux) vs
  | [], [], _, _ => by simp [EnvView]
  | [], _ :: _, _, h => by simp [EnvGiven] at h
  | _ :: _, [], _, h => by simp [EnvGiven] at h
  | p :: ps, x :: vs, aux, ⟨h1, h2, h3, h4⟩ => ⟨h1, h2, h3, envGiven_view aux h4⟩

/-- C96: after the start, `getenv` finds the variables the program was started with (the first one of that name), whatever the
globals contained. -/
theorem C96_getenv (c : Switches) (hc : c.environ = true) (g : Globals) (sp : Nat) {args env aux : List Nat} {m : Mem} {vs : List Var}
    (he : EnvGiven m env vs) {name : Nat} {s : List Byte} (hs : m.IsStr name s) (heq : 61#8 ∉ s) :
    ∃ argc argv envp a, startArgs sp (startStack args env aux) = .ok (argc, argv, envp) ∧
      getenv m name (stackFrom sp (startStack args env aux) (startup c g envp).environ) = .ok a ∧
      match lookupVar s vs with
      | none => a = 0
      | some v => a ≠ 0 ∧ m.IsStr a v := by
  obtain ⟨argv, envp, h1, -, h3⟩ := C96_arguments sp args env aux
  obtain ⟨a, h4, h5⟩ := C45_getenv_value hs heq (envGiven_view aux he)
  refine ⟨_, argv, envp, a, h1, ?_, h5⟩
  have : (startup c g envp).environ = envp := by
    unfold startup startRest
    simp only [hc, if_true]
    split <;> split <;> split <;> rfl
  rw [this, h3]
  exact h4

/-- C96 for additions to the environment: `putenv` of a new variable leaves the auxiliary vector alone. -/
def C96_putenv_full : Prop :=
  ∀ (m : Mem) (p : Nat) (env aux : List Nat) (vs : List Var) (arr : List Nat) (r : Int) (x : Var), EnvGiven m env vs → p ≠ 0 →
    m.IsStr p (x.1 ++ 61#8 :: x.2) → putenv m p (env ++ 0 :: aux) = .ok (arr, r) → ∃ e, arr = e ++ aux

/-- The NULL behind a new variable goes to the first word of the auxiliary vector. -/
theorem C96_putenv_refuted : ¬ C96_putenv_full := by
  intro h
  have hs : (objects [(16, [65#8, 61#8, 49#8, 0#8])]).IsStr 16 ([65#8] ++ 61#8 :: [49#8]) := ⟨by decide, by decide⟩
  have hp : putenv (objects [(16, [65#8, 61#8, 49#8, 0#8])]) 16 ([] ++ 0 :: [33, 7, 0, 0]) = .ok ([16, 0, 7, 0, 0], 0) := by
    unfold putenv
    rw [putenvPos_eq (v := [49#8]) [65#8] 0 hs (by decide)]
    rfl
  obtain ⟨e, he⟩ := h (objects [(16, [65#8, 61#8, 49#8, 0#8])]) 16 [] [33, 7, 0, 0] [] _ _ ([65#8], [49#8]) trivial (by decide) hs hp
  have h1 : ([16, 0, 7, 0, 0] : List Nat).reverse = ([33, 7, 0, 0] : List Nat).reverse ++ e.reverse := by rw [he]; simp
  have h2 := congrArg (fun l : List Nat => l[3]?) h1
  simp at h2

/-! ### the globals -/

/-- C96: requests right after the start are served from the whole arena, whatever the globals and the arena contained: all the
theorems about histories of `malloc` and `free` apply. -/
theorem C96_malloc (c : Switches) (g : Globals) (envp : Nat) {A : Arena} {m : Mem} (hA : A.Ok m) (hc : c.buf = some A.size) :
    Reach A m ⟨⟨m, (startup c g envp).mbufsize⟩, [], fun _ => none⟩ ∧
    ∀ n : Nat, 1 ≤ n → need n + 64 + 4 ≤ A.size →
      ∃ h p, malloc A ⟨m, (startup c g envp).mbufsize⟩ n = .ok (h, p) ∧ p ≠ 0 ∧ p % 4 = 0 ∧ A.base ≤ p ∧ p + n ≤ A.base + A.size := by
  have hb : (startup c g envp).mbufsize = (A.size : Int) - 4 := by
    unfold startup startRest startBuf
    rw [hc]
    dsimp only
    split <;> split <;> split <;> split <;> split <;> rfl
  have hr : Reach A m ⟨⟨m, (startup c g envp).mbufsize⟩, [], fun _ => none⟩ := by rw [hb]; exact .init
  refine ⟨hr, fun n h1 h2 => ?_⟩
  have hsz := hA.sizeLt
  have hn : n ≤ 2147483640 := by unfold need at h2; omega
  obtain ⟨h, p, e, hp, -⟩ := (C20_malloc_partial hA hr h1 hn).2 (by dsimp only; rw [hb]; omega)
  obtain ⟨f1, f2, f3, -⟩ := C17_fresh hA hr h1 hn e hp
  exact ⟨h, p, e, hp, f1, by omega, by omega⟩

/-- C96: the break starts with the kernel's one, whatever the globals contained. -/
theorem C96_brk (c : Switches) (g : Globals) (envp : Nat) (K : BrkK) (A : Arena) (h₀ : Heap) :
    BReach K A h₀ ⟨⟨h₀, (startup c g envp).brk, (startup c g envp).mallocStart, K.start, 0⟩, [], fun _ => none, []⟩ :=
  .init

/-- C96: the standard streams are 0, 1 and 2, without flags and without a byte pushed back, and `errno` is 0. -/
theorem C96_standard (c : Switches) (g : Globals) (envp : Nat) (hb : c.buf ≠ none) (hl : g.stream.length = 16) :
    (∀ i, i < 3 → ∃ x, (startup c g envp).stream[i]? = some x ∧ fileno x = BitVec.ofNat 32 i ∧ feof x = false ∧ ferror x = false ∧
      x >>> 24 = 0#32) ∧
    (c.errno = true → (startup c g envp).errno = 0) := by
  constructor
  · have hs : (startup c g envp).stream = ((g.stream.set 0 0#32).set 1 1#32).set 2 2#32 := by
      unfold startup startRest startBuf
      cases h : c.buf with
      | none => exact absurd h hb
      | some n => dsimp only; split <;> split <;> split <;> split <;> split <;> rfl
    intro i hi
    rw [hs]
    refine ⟨BitVec.ofNat 32 i, ?_, ?_⟩
    · match i, hi with
      | 0, _ => simp [List.getElem?_set, hl]
      | 1, _ => simp [List.getElem?_set, hl]
      | 2, _ => simp [List.getElem?_set, hl]
    · match i, hi with
      | 0, _ => decide
      | 1, _ => decide
      | 2, _ => decide
  · intro h
    unfold startup startRest
    simp only [h, if_true]
    split <;> split <;> split <;> split <;> rfl

/-- C96: handlers registered after the start run at the end in reverse order, whatever the table contained before. -/
theorem C96_atexit (c : Switches) (g : Globals) (envp : Nat) (hc : c.atexit = true) {n : Nat} (hl : g.atexitp.length = n) {fs : List Nat}
    (hf : ∀ f ∈ fs, f ≠ 0) (hlt : fs.length < n) (behind : List Nat) :
    ∃ t' rs, atexitAll n (startup c g envp).atexitp fs = .ok (t', rs) ∧ rs.length = fs.length ∧ (∀ r ∈ rs, r = 0) ∧
      exitRun n t' behind = .ok fs.reverse := by
  have ht : (startup c g envp).atexitp = g.atexitp.set 0 0 := by
    unfold startup startRest startBuf
    simp only [hc, if_true]
    split <;> split <;> split <;> split <;> split <;> rfl
  rw [ht]
  refine C47_order_partial (by simpa using hl) ?_ hf hlt behind
  rw [List.getElem?_set, if_pos rfl, if_pos (by omega)]

/-- C96: calls of the passwd functions after the start read the file from its first line, whatever the globals contained. -/
theorem C96_passwd_partial (c : Switches) (g : Globals) (envp : Nat) (hc : c.pwent = true) {m : Mem}
    {ls : List Spec.PwLine} {m0 : Mem} {a : Nat} {ops : List Spec.PwOp}
    (hne : ls ≠ []) (hG : ∀ l ∈ ls, l.Good) (ha : a ≠ 0) (hlen : (Spec.pwText ls).length < 2147483648)
    (hT : m0.Holds a (Spec.pwText ls)) (hn : ∀ op ∈ ops, NamOk m0 op)
    (hsafe : Spec.pwSafe ls { opened := false, pos := 0, last := none } ops) :
    ∃ s' ws, pwRun (some (m0, a, (Spec.pwText ls).length)) ⟨m, (startup c g envp).passwdfile, (startup c g envp).pwent⟩ ops = .ok (s', ws) ∧
      List.Forall₂ (PwAns s'.m) ws (Spec.pwAnswers ls { opened := false, pos := 0, last := none } ops) := by
  have hf : (startup c g envp).passwdfile.file = 0 ∧ (startup c g envp).pwent.name = 0 := by
    unfold startup startRest
    simp only [hc, if_true]
    split <;> split <;> split <;> split <;> exact ⟨rfl, rfl⟩
  obtain ⟨s', ws, h1, h2, -⟩ := C55_passwd_partial (s := ⟨m, (startup c g envp).passwdfile, (startup c g envp).pwent⟩) hne hG ha hlen hT hf.1 hf.2 hn hsafe
  exact ⟨s', ws, h1, h2⟩

/-! ### streams that are closed in the reverse order -/

/-- Streams opened (with the descriptor the kernel answers) and closed (`none`: the one opened last), at most 12 at once: the descriptors
handed back, and the streams open in the end. -/
def _root_.Spec.nested : List (BitVec 32) → List (Option (BitVec 32)) → Option (List (BitVec 32) × List (BitVec 32))
  | st, [] => some ([], st)
  | st, some d :: ops => if st.length < 12 then nested (d :: st) ops else none
  | [], none :: _ => none
  | d :: st, none :: ops => (nested st ops).map (fun r => (d :: r.1, r.2))

/-- The same calls in the library; `ps` are the streams the program holds. -/
def nestedRun : Table → List Nat → List (Option (BitVec 32)) → Res (Table × List Nat × List (BitVec 32))
  | t, ps, [] => .ok (t, ps, [])
  | t, ps, some d :: ops => do
    let r ← openStream t d
    match r.2 with
    | none => .ub
    | some a => nestedRun r.1 (a :: ps) ops
  | _, [], none :: _ => .ub
  | t, p :: ps, none :: ops => do
    let r ← fclose t p
    let q ← nestedRun r.1 ps ops
    pure (q.1, q.2.1, r.2 :: q.2.2)

/-- The table holds the standard streams and `st` (last one first); nothing is said about the cells behind. -/
structure NestInv (t : Table) (ps : List Nat) (st : List (BitVec 32)) : Prop where
  len : t.cells.length = 16
  top : t.pstream = 3 + st.length
  max : st.length ≤ 12
  ptrs : ps = (List.range st.length).reverse.map (· + 3)
  std : ∀ i, i < 3 → t.cells[i]? = some (BitVec.ofNat 32 i)
  vals : ∀ i, i < st.length → t.cells[3 + i]? = st.reverse[i]?

theorem range_succ_rev (n : Nat) : (List.range (n + 1)).reverse.map (· + 3) = (n + 3) :: (List.range n).reverse.map (· + 3) := by
  rw [List.range_succ]; simp

theorem NestInv.opened {t : Table} {ps : List Nat} {st : List (BitVec 32)} (I : NestInv t ps st) (hl : st.length < 12) {d : BitVec 32}
    (hd : 0 ≤ d.toInt) : ∃ t', openStream t d = .ok (t', some (st.length + 3)) ∧ NestInv t' ((st.length + 3) :: ps) (d :: st) := by
  refine ⟨⟨t.cells.set (3 + st.length) d, t.pstream + 1⟩, ?_, ?_⟩
  · unfold openStream newCell
    rw [if_neg (by have := I.top; omega)]
    simp only [Res.ok_bind]
    unfold setCell
    rw [if_neg (by omega), I.top, Nat.add_comm st.length 3]
    rfl
  · refine ⟨by simp [I.len], by simp [I.top]; omega, by simp; omega, ?_, ?_, ?_⟩
    · rw [I.ptrs, List.length_cons, range_succ_rev]
    · intro i hi
      rw [List.getElem?_set_ne (by omega)]
      exact I.std i hi
    · intro i hi
      simp only [List.length_cons] at hi
      by_cases h : i = st.length
      · subst h
        rw [List.getElem?_set_self (by rw [I.len]; omega)]
        simp
      · rw [List.getElem?_set_ne (by omega), I.vals i (by omega), List.reverse_cons, List.getElem?_append_left (by simp; omega)]

theorem NestInv.closed {t : Table} {p : Nat} {ps : List Nat} {d : BitVec 32} {st : List (BitVec 32)} (I : NestInv t (p :: ps) (d :: st))
    (hd : ∀ x ∈ st, 0 ≤ x.toInt) : ∃ t', fclose t p = .ok (t', fileno d) ∧ NestInv t' ps st := by
  have hp := I.ptrs
  rw [List.length_cons, range_succ_rev] at hp
  injection hp with hp hps
  have hmax := I.max
  have htop := I.top
  simp only [List.length_cons] at hmax htop
  have hc : t.cells[3 + st.length]? = some d := by
    rw [I.vals _ (by simp)]; simp
  have hlow : ∀ i, i < 3 + st.length → ∃ x, t.cells[i]? = some x ∧ x ≠ 0xffffffff#32 := by
    intro i hi
    by_cases h : i < 3
    · refine ⟨_, I.std i h, ?_⟩
      match i, h with
      | 0, _ => decide
      | 1, _ => decide
      | 2, _ => decide
    · have := I.vals (i - 3) (by simp; omega)
      rw [show 3 + (i - 3) = i by omega, List.reverse_cons, List.getElem?_append_left (by simp; omega)] at this
      have hx : i - 3 < st.reverse.length := by simp; omega
      rw [List.getElem?_eq_getElem hx] at this
      refine ⟨_, this, ?_⟩
      intro he
      have h0 := hd _ (List.mem_reverse.1 (List.getElem_mem hx))
      rw [he] at h0
      exact absurd h0 (by decide)
  refine ⟨⟨t.cells.set p 0xffffffff#32, 3 + st.length⟩, ?_, ?_⟩
  · unfold fclose Table.get
    rw [hp, Nat.add_comm st.length 3, hc]
    simp only [Res.ok_bind]
    have hx : 3 + st.length + 1 < t.cells.length := by rw [I.len]; omega
    rw [htop, show 3 + (st.length + 1) = 3 + st.length + 1 by omega]
    rw [List.getElem?_set_ne (by omega), List.getElem?_eq_getElem hx]
    simp only [Res.ok_bind, if_true]
    obtain ⟨x, h1, h2⟩ := hlow (2 + st.length) (by omega)
    rw [show 3 + st.length = (2 + st.length) + 1 by omega, trimCells, Table.get]
    dsimp only
    rw [List.getElem?_set_ne (by omega), h1]
    simp only [Res.ok_bind]
    rw [if_neg h2]
    rfl
  · refine ⟨by simp [I.len], rfl, by omega, hps, ?_, ?_⟩
    · intro i hi
      rw [List.getElem?_set_ne (by omega)]
      exact I.std i hi
    · intro i hi
      rw [List.getElem?_set_ne (by omega), I.vals i (by simp; omega), List.reverse_cons, List.getElem?_append_left (by simp; omega)]

theorem nestedRun_inv : ∀ (ops : List (Option (BitVec 32))) {t : Table} {ps : List Nat} {st cl fin : List (BitVec 32)}, NestInv t ps st →
    (∀ x ∈ st, 0 ≤ x.toInt ∧ fileno x = x) → (∀ d, some d ∈ ops → 0 ≤ d.toInt ∧ fileno d = d) → nested st ops = some (cl, fin) →
    ∃ t' ps', nestedRun t ps ops = .ok (t', ps', cl) ∧ NestInv t' ps' fin
  | [], t, ps, st, cl, fin, I, _, _, h => by
    simp only [nested, Option.some.injEq, Prod.mk.injEq] at h
    obtain ⟨rfl, rfl⟩ := h
    exact ⟨t, ps, rfl, I⟩
  | some d :: ops, t, ps, st, cl, fin, I, hst, hd, h => by
    simp only [nested] at h
    by_cases hl : st.length < 12
    · rw [if_pos hl] at h
      obtain ⟨t1, e1, I1⟩ := I.opened hl (hd d (by simp)).1
      obtain ⟨t', ps', e2, I2⟩ := nestedRun_inv ops I1 (by
        intro x hx
        rcases List.mem_cons.1 hx with rfl | hx
        · exact hd x (by simp)
        · exact hst x hx) (fun x hx => hd x (by simp [hx])) h
      refine ⟨t', ps', ?_, I2⟩
      rw [nestedRun, e1]
      exact e2
    · rw [if_neg hl] at h; cases h
  | none :: ops, t, ps, st, cl, fin, I, hst, hd, h => by
    cases st with
    | nil => simp [nested] at h
    | cons d st =>
      simp only [nested, Option.map_eq_some_iff] at h
      obtain ⟨⟨cl', fin'⟩, h1, h2⟩ := h
      simp only [Prod.mk.injEq] at h2
      obtain ⟨rfl, rfl⟩ := h2
      cases ps with
      | nil => have := congrArg List.length I.ptrs; simp at this
      | cons p ps =>
        obtain ⟨t1, e1, I1⟩ := I.closed (fun x hx => (hst x (by simp [hx])).1)
        obtain ⟨t', ps', e2, I2⟩ := nestedRun_inv ops I1 (fun x hx => hst x (by simp [hx])) (fun x hx => hd x (by simp [hx])) h1
        refine ⟨t', ps', ?_, I2⟩
        rw [nestedRun, e1, Res.ok_bind]
        dsimp only
        rw [e2, (hst d (by simp)).2]
        rfl

/-- C96: whatever the table of streams contained before the start, streams that are closed in the reverse order of opening are
independent: every `fclose` closes the descriptor of its stream, the streams still open are different ones and have their
descriptors, and the standard streams are untouched.  Partial: for other orders see C96_streams_refuted; opening may not fail. -/
theorem C96_streams_partial (c : Switches) (g : Globals) (envp : Nat) (hb : c.buf ≠ none) (hl : g.stream.length = 16)
    {ops : List (Option (BitVec 32))} (hd : ∀ d, some d ∈ ops → 0 ≤ d.toInt ∧ fileno d = d) {cl st : List (BitVec 32)}
    (h : nested [] ops = some (cl, st)) :
    ∃ t' ps, nestedRun ⟨(startup c g envp).stream, (startup c g envp).pstream⟩ [] ops = .ok (t', ps, cl) ∧
      ps.Nodup ∧ (∀ p ∈ ps, 3 ≤ p) ∧ ps.map (fun p => (t'.cells.getD p 0#32)) = st ∧
      (∀ i, i < 3 → t'.cells[i]? = some (BitVec.ofNat 32 i)) := by
  have hs : (startup c g envp).stream = ((g.stream.set 0 0#32).set 1 1#32).set 2 2#32 ∧ (startup c g envp).pstream = 3 := by
    unfold startup startRest startBuf
    cases h : c.buf with
    | none => exact absurd h hb
    | some n => dsimp only; split <;> split <;> split <;> split <;> split <;> exact ⟨rfl, rfl⟩
  have I : NestInv ⟨(startup c g envp).stream, (startup c g envp).pstream⟩ [] [] := by
    refine ⟨by rw [hs.1]; simp [hl], by rw [hs.2]; rfl, by simp, rfl, ?_, by simp⟩
    intro i hi
    rw [hs.1]
    match i, hi with
    | 0, _ => simp [List.getElem?_set, hl]
    | 1, _ => simp [List.getElem?_set, hl]
    | 2, _ => simp [List.getElem?_set, hl]
  obtain ⟨t', ps, e, J⟩ := nestedRun_inv ops I (by simp) hd h
  refine ⟨t', ps, e, ?_, ?_, ?_, J.std⟩
  · rw [J.ptrs, List.Nodup, List.pairwise_map]
    have : (List.range st.length).reverse.Pairwise (· ≠ ·) := List.pairwise_reverse.2 (List.nodup_range.imp (fun h => h.symm))
    exact this.imp (fun h => by omega)
  · intro p hp
    rw [J.ptrs] at hp
    simp at hp
    omega
  · apply List.ext_getElem?
    intro i
    rw [J.ptrs]
    by_cases hi : i < st.length
    · rw [List.getElem?_map, List.getElem?_map, List.getElem?_reverse (by simpa using hi), List.length_range, List.getElem?_range (by omega)]
      simp only [Option.map_some, List.getD_eq_getElem?_getD]
      have := J.vals (st.length - 1 - i) (by omega)
      rw [show st.length - 1 - i + 3 = 3 + (st.length - 1 - i) by omega, this, List.getElem?_reverse (by omega),
        show st.length - 1 - (st.length - 1 - i) = i by omega, List.getElem?_eq_getElem hi]
      rfl
    · rw [List.getElem?_eq_none (by simp; omega), List.getElem?_eq_none (by omega)]

/-! ### where the property fails: globals on the stack -/

/-- Globals as they might be on the stack. -/
def dirtyGlobals : Globals :=
  ⟨5, 0x4e260138#32, 9, 77, 1, 2, 3, [7, 7, 7, 7, 7, 7, 7, 7], 99, [9#32, 9#32, 9#32, 9#32, 9#32, 4#32] ++ List.replicate 10 8#32, ⟨512, 512, 512, 8192⟩,
    ⟨1, 1, 1, 1, 1, 1, 1⟩, ⟨512, 512, 512, 64⟩, ⟨1, 1, 1, List.replicate 64 1⟩⟩

/-- All the switches the library knows. -/
def allSwitches : Switches := ⟨some 256, true, true, true, true, false⟩

/-- C96 for the group functions: the first call opens the file of the groups, i.e. fails when that is not there. -/
def C96_group_full : Prop := ∀ (c : Switches) (g : Globals) (envp : Nat) (m : Mem), c.groupfile = false →
  ∃ s, getgrent none ⟨m, (startup c g envp).groupfile, (startup c g envp).groupent⟩ = .ok (s, false)

/-- The place of the file is not set at the start (the switch mini_groupfile is never defined): the first call of getgrent reads at an
indeterminate address. -/
theorem C96_group_refuted : ¬ C96_group_full := by
  intro h
  obtain ⟨s, e⟩ := h allSwitches dirtyGlobals 0 (fun _ => none) rfl
  have : getgrent none ⟨fun _ => none, (startup allSwitches dirtyGlobals 0).groupfile, (startup allSwitches dirtyGlobals 0).groupent⟩ = .ub := by
    show getgrentOpen (fun _ => none) ⟨512, 512, 512, 64⟩ _ = _
    unfold getgrentOpen
    rw [if_neg (by decide)]
    unfold tokenS
    rw [tokenSLoop, if_pos (by decide)]
    rfl
  rw [this] at e
  cases e

/-- C96: when the globals are zero before the start (section .bss), calls of the group functions read the file from its first line. -/
theorem C96_group_partial (c : Switches) (g : Globals) (envp : Nat) (h0 : g.groupfile.file = 0) (hm : g.groupent.mem.length = 64)
    {ls : List Spec.GrLine} {m m0 : Mem} {a : Nat} {ops : List Spec.GrOp}
    (hne : ls ≠ []) (hG : ∀ l ∈ ls, l.Good) (ha : a ≠ 0) (h64 : a + (Spec.grText ls).length < 18446744073709551616)
    (hlen : (Spec.grText ls).length < 2147483648) (hT : m0.Holds a (Spec.grText ls))
    (hz : ∀ i, i < 8 * ls.length → m0 (a + (Spec.grText ls).length + i) = some 0#8)
    (hm0 : ∀ x, (x < a ∨ a + (Spec.grText ls).length + 8 * ls.length ≤ x) → m0 x = m x)
    (hn : ∀ op ∈ ops, GNamOk ls a m0 op) :
    ∃ s' ws, grRun (some (m0, a, (Spec.grText ls).length)) ⟨m, (startup c g envp).groupfile, (startup c g envp).groupent⟩ ops = .ok (s', ws) ∧
      List.Forall₂ (GrAns s'.m) ws (Spec.grAnswers ls { opened := false, pos := 0, last := none } ops) := by
  have hf : (startup c g envp).groupfile.file = 0 ∧ (startup c g envp).groupent.mem.length = 64 := by
    unfold startup startRest startBuf
    dsimp only
    split <;> split <;> split <;> split <;> split <;> split <;> exact ⟨by first | rfl | exact h0, hm⟩
  obtain ⟨s', ws, h1, h2, -⟩ := C55_group_partial (s := ⟨m, (startup c g envp).groupfile, (startup c g envp).groupent⟩) hne hG ha h64 hlen hT hz hf.1 hf.2 hm0 hn
  exact ⟨s', ws, h1, h2⟩

/-- C96 for `endpwent`: without a file open it changes nothing in memory. -/
def C96_endpwent_full : Prop := ∀ (c : Switches) (g : Globals) (envp : Nat) (m : Mem), c.pwent = true →
  (endpwent ⟨m, (startup c g envp).passwdfile, (startup c g envp).pwent⟩).m = m

/-- The size is not set: `endpwent` right after the start unmaps the lowest pages of the program, as many as an indeterminate number
says. -/
theorem C96_endpwent_refuted : ¬ C96_endpwent_full := by
  intro h
  have := congrFun (h allSwitches dirtyGlobals 0 (object 4096 [1#8]) rfl) 4096
  exact absurd this (by decide +kernel)

/-- C96 for streams closed in another order: two streams opened, the first one closed, two more opened: all open streams are
different ones. -/
def C96_streams_full : Prop := ∀ (c : Switches) (g : Globals) (envp : Nat), c.buf ≠ none → g.stream.length = 16 →
  ∀ t1 t2 t3 t4 t5 a b fd x y, openStream ⟨(startup c g envp).stream, (startup c g envp).pstream⟩ 3#32 = .ok (t1, some a) →
    openStream t1 4#32 = .ok (t2, some b) → fclose t2 a = .ok (t3, fd) → openStream t3 3#32 = .ok (t4, some x) →
    openStream t4 5#32 = .ok (t5, some y) → y ≠ b

/-- `fclose` compares the descriptor of the next stream with what the first unused cell happens to contain: the second of the new streams
gets the place of one that is open. -/
theorem C96_streams_refuted : ¬ C96_streams_full := by
  intro h
  exact h allSwitches dirtyGlobals 0 (by decide) rfl _ _ _ _ _ 3 4 3#32 3 4 rfl rfl rfl rfl rfl rfl

/-- C96 for `rand`: the numbers of a program that does not call `srand` do not depend on what was in memory. -/
def C96_rand_full : Prop := ∀ (c : Switches) (g g' : Globals) (envp n : Nat),
  randOut (startup c g envp).srand n = randOut (startup c g' envp).srand n

/-- The state is not set: the numbers are arbitrary, even those of one of the stuck states (C36). -/
theorem C96_rand_refuted : ¬ C96_rand_full := by
  intro h
  exact absurd (h allSwitches dirtyGlobals { dirtyGlobals with srand := 0#32 } 0 0) (by decide +kernel)

/-- C96: when the globals are zero before the start the numbers are those of `srand(1)`. -/
theorem C96_rand_partial (c : Switches) (g : Globals) (envp n : Nat) (h0 : g.srand = 0#32) :
    randOut (startup c g envp).srand n = randOut (srand 0#32 1#32) n := by
  have : (startup c g envp).srand = 0#32 := by
    unfold startup startRest startBuf
    dsimp only
    split <;> split <;> split <;> split <;> split <;> split <;> exact h0
  have hs : ∀ k, randState 0#32 (k + 1) = randState 1#32 (k + 1) := by
    intro k
    induction k with
    | zero => decide
    | succ k ih => rw [randState, ih]; rfl
  rw [this]
  show randOut 0#32 n = randOut 1#32 n
  unfold randOut
  cases n with
  | zero => decide
  | succ k => rw [hs]

/-! ### the auxiliary vector (32 bit, with vsyscalls) -/

/-- The auxiliary vector: pairs of a type that is not 0 and a value, ended by type 0. -/
def _root_.Spec.auxWords : List (Nat × Nat) → List Nat
  | [] => [0, 0]
  | (t, v) :: r => t :: v :: auxWords r

theorem skipEnv_eq : ∀ {env : List Nat} (r : List Nat), (∀ p ∈ env, p ≠ 0) → skipEnv (env ++ 0 :: r) = .ok r
  | [], r, _ => rfl
  | p :: env, r, h => by
    rw [List.cons_append, skipEnv, if_pos (h p (by simp))]
    exact skipEnv_eq r (fun x hx => h x (by simp [hx]))

/-- C96: with vsyscalls, the entry of the kernel (type 32) is found behind the environment. -/
theorem C96_vsyscall_partial {env : List Nat} {aux : List (Nat × Nat)} (he : ∀ p ∈ env, p ≠ 0) {v : Nat}
    (ha : (aux.find? (fun x => x.1 = 32)).map (·.2) = some v) : startC (env ++ 0 :: auxWords aux) = .ok v := by
  unfold startC
  rw [skipEnv_eq _ he, Res.ok_bind]
  clear he
  induction aux with
  | nil => simp at ha
  | cons x r ih =>
    obtain ⟨t, w⟩ := x
    rw [auxWords, auxSearch]
    by_cases h : t = 32
    · rw [if_pos h]
      simp only [List.find?_cons, h, decide_true, Option.map_some, Option.some.injEq] at ha
      rw [ha]
    · rw [if_neg h]
      simp only [List.find?_cons, h, decide_false] at ha
      exact ih ha

/-- C96 for kernels without that entry: nothing beyond the vector is read. -/
def C96_vsyscall_full : Prop := ∀ (env : List Nat) (aux : List (Nat × Nat)), (∀ p ∈ env, p ≠ 0) → (∀ x ∈ aux, x.1 ≠ 0) →
  ∃ v, startC (env ++ 0 :: auxWords aux) = .ok v

/-- The search does not stop at the end of the vector. -/
theorem C96_vsyscall_refuted : ¬ C96_vsyscall_full := by
  intro h
  obtain ⟨v, e⟩ := h [] [] (by simp) (by simp)
  cases e

example : startC ([16, 48] ++ 0 :: auxWords [(6, 4096), (32, 77), (9, 1)]) = .ok 77 := C96_vsyscall_partial (by decide) (by decide)

/-! ### the theorems apply: dirty globals -/

example : ∃ t' ps, nestedRun ⟨(startup allSwitches dirtyGlobals 0).stream, (startup allSwitches dirtyGlobals 0).pstream⟩ []
    [some 3#32, some 4#32, none, some 4#32, some 5#32, none] = .ok (t', ps, [4#32, 5#32]) ∧ ps.map (fun p => t'.cells.getD p 0#32) = [4#32, 3#32] := by
  obtain ⟨t', ps, h1, -, -, h4, -⟩ := C96_streams_partial allSwitches dirtyGlobals 0 (by decide) rfl
    (ops := [some 3#32, some 4#32, none, some 4#32, some 5#32, none]) (cl := [4#32, 5#32]) (st := [4#32, 3#32]) (by
      intro d hd
      simp only [List.mem_cons, List.not_mem_nil, or_false, Option.some.injEq, reduceCtorEq, false_or] at hd
      rcases hd with rfl | rfl | rfl | rfl <;> decide) (by decide)
  exact ⟨t', ps, h1, h4⟩

example : ∃ t' rs, atexitAll 8 (startup allSwitches dirtyGlobals 0).atexitp [11, 12] = .ok (t', rs) ∧ rs.length = 2 ∧ (∀ r ∈ rs, r = 0) ∧
    exitRun 8 t' [99, 1] = .ok [12, 11] :=
  C96_atexit allSwitches dirtyGlobals 0 rfl rfl (fs := [11, 12]) (by decide) (by decide) [99, 1]

example : ∃ h p, malloc exArena ⟨exHeapMem, (startup allSwitches dirtyGlobals 0).mbufsize⟩ 100 = .ok (h, p) ∧ p ≠ 0 := by
  obtain ⟨h, p, e, hp, -⟩ := (C96_malloc allSwitches dirtyGlobals 0 exArena_ok rfl).2 100 (by decide) (by decide)
  exact ⟨h, p, e, hp⟩

example : (∃ x, (startup allSwitches dirtyGlobals 0).stream[1]? = some x ∧ fileno x = 1#32) ∧ (startup allSwitches dirtyGlobals 0).errno = 0 := by
  obtain ⟨h1, h2⟩ := C96_standard allSwitches dirtyGlobals 0 (by decide) rfl
  obtain ⟨x, a, b, -⟩ := h1 1 (by decide)
  exact ⟨⟨x, a, b⟩, h2 rfl⟩

/-- The variable PATH=/ (text at 16), and its name (at 32). -/
example : ∃ argc argv envp a, startArgs 4096 (startStack [64] [16] [33, 7, 0, 0]) = .ok (argc, argv, envp) ∧
    getenv (objects [(16, [80#8, 61#8, 47#8, 0#8]), (32, [80#8, 0#8])]) 32
      (stackFrom 4096 (startStack [64] [16] [33, 7, 0, 0]) (startup allSwitches dirtyGlobals envp).environ) = .ok a ∧
    a ≠ 0 ∧ (objects [(16, [80#8, 61#8, 47#8, 0#8]), (32, [80#8, 0#8])]).IsStr a [47#8] :=
  C96_getenv allSwitches rfl dirtyGlobals 4096 (args := [64]) (env := [16]) (aux := [33, 7, 0, 0])
    (m := objects [(16, [80#8, 61#8, 47#8, 0#8]), (32, [80#8, 0#8])]) (vs := [([80#8], [47#8])]) ⟨by decide, ⟨by decide, by decide⟩, by decide, trivial⟩ (s := [80#8])
    ⟨by decide, by decide⟩ (by decide)

example : ∃ s' ws, pwRun (some (exPwMem, 4096, (Spec.pwText [exRoot, exUser]).length))
      ⟨exPwMem, (startup allSwitches dirtyGlobals 0).passwdfile, (startup allSwitches dirtyGlobals 0).pwent⟩ [.next, .next, .next] = .ok (s', ws) ∧
    List.Forall₂ (PwAns s'.m) ws [some exRoot, some exUser, none] :=
  C96_passwd_partial allSwitches dirtyGlobals 0 rfl (by simp) (by decide) (by decide) (by decide) (by decide +kernel)
    (by simp [NamOk]) (by simp [Spec.pwSafe, Spec.pwSafeOp])

/-- C96: the heap at the break, and the numbers after a start without a seed. -/
example : BReach exBrkK exArena ⟨exHeapMem, 252⟩ ⟨⟨⟨exHeapMem, 252⟩, (startup allSwitches dirtyGlobals 0).brk,
      (startup allSwitches dirtyGlobals 0).mallocStart, exBrkK.start, 0⟩, [], fun _ => none, []⟩ :=
  C96_brk allSwitches dirtyGlobals 0 exBrkK exArena _

example : randOut (startup allSwitches { dirtyGlobals with srand := 0#32 } 0).srand 5 = randOut (srand 0#32 1#32) 5 :=
  C96_rand_partial allSwitches _ 0 5 rfl

example : ∃ s' ws, grRun (some (exGrMem, 4096, exGrText.length))
      ⟨exGrMem, (startup allSwitches { dirtyGlobals with groupfile := ⟨0, 0, 0, 0⟩ } 0).groupfile,
        (startup allSwitches { dirtyGlobals with groupfile := ⟨0, 0, 0, 0⟩ } 0).groupent⟩ exGrOps = .ok (s', ws) ∧
    List.Forall₂ (GrAns s'.m) ws
      [none, none, none, none, some exUsers, some exUsers, none, none, some exWheel, some exUsers, none, some exWheel] :=
  C96_group_partial allSwitches { dirtyGlobals with groupfile := ⟨0, 0, 0, 0⟩ } 0 rfl rfl (ls := [exWheel, exUsers]) (m0 := exGrMem) (a := 4096)
    (ops := exGrOps) (by simp) (by decide) (by decide) (by decide) (by decide) (by decide +kernel) (by decide +kernel) (fun _ _ => rfl) exGr_names

end Minilib

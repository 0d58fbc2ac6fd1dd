import Verif.Props.Printf
import Verif.Props.Env
import Verif.Model.Sprintf
/-
C86: sprintf, vsprintf, and the names of pseudo terminals.  C87: term_width.
-/

set_option autoImplicit false

namespace Minilib
open Mem Spec

/-- A call of sprintf: the format and the strings are outside of the text written, for which there is room. -/
structure _root_.Spec.SpCall (m : Mem) (buf fmt : Nat) (its : List Item) : Prop where
  mapped : m.Mapped buf ((render its).length + 1)
  items : ∀ it ∈ its, it.Ok ∧ it.StrOk m buf ((render its).length + 1)
  format : m.Holds fmt (fmtText its ++ [0#8])
  disjoint : fmt + (fmtText its).length < buf ∨ buf + ((render its).length + 1) ≤ fmt

theorem vsnprintf_exact {junk : Nat → Byte} {m : Mem} {buf size fmt : Nat} {its : List Item}
    (hc : SpCall m buf fmt its) (hg : ∀ it ∈ its, it.Good) (hroom : (render its).length + spare its < size) :
    vsnprintf junk m buf size fmt (fmtArgs its) = .ok (m.write buf (render its ++ [0#8]), ((render its).length : Int), false) := by
  have hr : (its.map Item.render).flatten = render its := by simp [render, List.flatMap]
  rcases vsnprintf_cap (size := size) hc.mapped (Or.inr (by rw [hr]; omega)) (by omega) (forall2_render junk hg) hc.items (Or.inr (by rw [hr]; exact hroom)) hc.format
    hc.disjoint with ⟨h1, h2⟩ | ⟨l, b, h1, h2, h3, h4⟩
  · rw [hr] at h1; exact h1
  · rw [hr] at h3; omega

/-- C86 in full: sprintf writes the text, however long, to a destination that has room for it. -/
def C86_full (miniBuf : Nat) : Prop :=
  ∀ (junk : Nat → Byte) (m : Mem) (str fmt : Nat) (its : List Item), SpCall m str fmt its → (∀ it ∈ its, it.Good) →
    sprintf miniBuf junk m str fmt (fmtArgs its) = .ok (m.write str (render its ++ [0#8]), ((render its).length : Int), false)

/-- C86: sprintf writes exactly the text and a NUL and answers its length: a destination of that many bytes is enough.  (Missing: texts of more than
mini_buf - 28 bytes, mini_buf - 32 if the format has a %b.) -/
theorem C86_sprintf_partial {miniBuf : Nat} {junk : Nat → Byte} {m : Mem} {str fmt : Nat} {its : List Item}
    (hc : SpCall m str fmt its) (hg : ∀ it ∈ its, it.Good) (hroom : (render its).length + spare its < miniBuf) :
    sprintf miniBuf junk m str fmt (fmtArgs its) = .ok (m.write str (render its ++ [0#8]), ((render its).length : Int), false) :=
  vsnprintf_exact hc hg hroom

/-- C86: vsprintf does the same, with the arguments given behind the format, up to 4068 bytes (4064 with %b). -/
theorem C86_vsprintf_partial {junk : Nat → Byte} {m : Mem} {buf fmt : Nat} {its : List Item}
    (hc : SpCall m buf fmt its) (hg : ∀ it ∈ its, it.Good) (hroom : (render its).length + spare its < 4096) :
    vsprintf junk m buf fmt (fmtArgs its) = .ok (m.write buf (render its ++ [0#8]), ((render its).length : Int), false) :=
  vsnprintf_exact hc hg (by omega)

theorem render_lits (c : Byte) (n : Nat) : render (List.replicate n (.lit c)) = List.replicate n c := by
  induction n with
  | zero => rfl
  | succ n ih => rw [List.replicate_succ, List.replicate_succ, ← ih]; rfl

theorem fmtText_lits (c : Byte) (n : Nat) : fmtText (List.replicate n (.lit c)) = List.replicate n c := by
  induction n with
  | zero => rfl
  | succ n ih => rw [List.replicate_succ, List.replicate_succ, ← ih]; rfl

/-- C86 fails whatever mini_buf is: SIGSEGV is raised, and a negative number answered, for every text of at least mini_buf bytes, although the destination
has room for it. -/
theorem C86_long_refuted {miniBuf : Nat} (hpos : 0 < miniBuf) :
    (∀ (junk : Nat → Byte) (m : Mem) (str fmt : Nat) (its : List Item), SpCall m str fmt its → (∀ it ∈ its, it.Good ∧ NoPad it) → miniBuf ≤ (render its).length →
      ∃ m' b, sprintf miniBuf junk m str fmt (fmtArgs its) = .ok (m', -(b : Int), true) ∧ 0 ≤ b) ∧ ¬ C86_full miniBuf := by
  have key : ∀ (junk : Nat → Byte) (m : Mem) (str fmt : Nat) (its : List Item), SpCall m str fmt its → (∀ it ∈ its, it.Good ∧ NoPad it) →
      miniBuf ≤ (render its).length → ∃ m' b, sprintf miniBuf junk m str fmt (fmtArgs its) = .ok (m', -(b : Int), true) ∧ 0 ≤ b := by
    intro junk m str fmt its hc hg hl
    have hr : (its.map Item.render).flatten = render its := by simp [render, List.flatMap]
    rcases vsnprintf_cap hc.mapped (Or.inr (by rw [hr]; omega)) hpos (forall2_render junk (fun it hit => (hg it hit).1)) hc.items
      (Or.inl (fun it hit => (hg it hit).2)) hc.format hc.disjoint with ⟨h1, h2⟩ | ⟨l, b, h1, h2, h3, h4⟩
    · rw [hr] at h2; omega
    · exact ⟨_, _, h4, Int.natCast_nonneg _⟩
  refine ⟨key, fun h => ?_⟩
  let its : List Item := List.replicate miniBuf (.lit 97#8)
  let m : Mem := fun a => if a < 10 then none else if a < 10 + miniBuf then some 97#8 else some 0#8
  have hits : ∀ it ∈ its, it = .lit 97#8 := fun it hit => List.eq_of_mem_replicate hit
  have hren : render its = List.replicate miniBuf 97#8 := render_lits _ _
  have htxt : fmtText its = List.replicate miniBuf 97#8 := fmtText_lits _ _
  have hc : SpCall m (20 + miniBuf) 10 its := by
    refine ⟨fun i _ => ?_, fun it hit => ?_, fun i hi => ?_, ?_⟩
    · exact ⟨0#8, by simp only [m]; rw [if_neg (by omega), if_neg (by omega)]⟩
    · rw [hits it hit]; exact ⟨⟨by decide, by decide⟩, trivial⟩
    · rw [htxt] at hi
      simp only [List.length_append, List.length_replicate, List.length_singleton] at hi
      simp only [m, htxt]
      rw [if_neg (by omega)]
      by_cases h : i < miniBuf
      · rw [if_pos (by omega), List.getElem_append_left (by simpa using h)]; simp
      · rw [if_neg (by omega), List.getElem_append_right (by simp; omega)]; simp
    · rw [htxt, List.length_replicate]; omega
  obtain ⟨m', b, e, _⟩ := key (fun _ => 0#8) m (20 + miniBuf) 10 its hc (fun it hit => by rw [hits it hit]; exact ⟨trivial, trivial⟩) (by rw [hren]; simp)
  have e2 := h (fun _ => 0#8) m (20 + miniBuf) 10 its hc (fun it hit => by rw [hits it hit]; trivial)
  rw [e] at e2
  simp at e2

/-- C86 fails: used as the standard says, with a `va_list` (a pointer) as last argument, vsprintf takes that pointer for the first number. -/
theorem C86_va_list_refuted {junk : Nat → Byte} {m : Mem} {buf fmt ap : Nat} {rest : List Byte} (hf : m.Holds fmt (37#8 :: 100#8 :: rest)) :
    vsprintf junk m buf fmt [.str ap] = .ub := by
  refine vsnprintf_ub (mods := []) (last := ⟨false, [], 100#8⟩) (by simp) (by decide) (by decide) (by decide) ?_ (fun a => by rfl)
  rw [show 37#8 :: 100#8 :: rest = [37#8, 100#8] ++ rest from rfl, holds_append] at hf
  exact hf.1

/-- "/dev/pts/". -/
def _root_.Spec.ptsDir : List Byte := [47, 100, 101, 118, 47, 112, 116, 115, 47]

/-- The name of the slave of the pseudo terminal `n`. -/
def _root_.Spec.ptsName (n : Nat) : List Byte := ptsDir ++ numeral 10 n

/-- The items of "/dev/pts/%d". -/
def ptsItems (n : Nat) : List Item := ptsDir.map .lit ++ [.conv [] false [] (.dec (BitVec.ofNat 32 n))]

theorem render_pts {n : Nat} (hn : n < 2147483648) : render (ptsItems n) = ptsName n := by
  have h1 : render (ptsDir.map .lit) = ptsDir := by decide +kernel
  have h2 : (BitVec.ofNat 32 n).toInt = n := by
    rw [BitVec.toInt_eq_toNat_cond, BitVec.toNat_ofNat, Nat.mod_eq_of_lt (by omega), if_pos (by omega)]
  have h3 : render [.conv [] false [] (.dec (BitVec.ofNat 32 n))] = numeral 10 n := by
    simp only [render, List.flatMap_cons, List.flatMap_nil, List.append_nil, Item.render, Conv.render, h2]
    rw [show convFlags [] false [] (Conv.dec (BitVec.ofNat 32 n)) = ⟨0, false, false, false, 0⟩ from rfl, padNum_zero, Int.natAbs_natCast]
    simp [signOf, sepOf]
  unfold ptsItems ptsName
  unfold render at *
  rw [List.flatMap_append, h1, h3]

theorem numeral_len {n : Nat} (hn : n < 2147483648) : (numeral 10 n).length ≤ 10 := numeral_length_le (by omega) (by omega) (by omega)

theorem ptsName_len {n : Nat} (hn : n < 2147483648) : (ptsName n).length ≤ 19 := by
  have := numeral_len hn
  simp only [ptsName, List.length_append]
  have : ptsDir.length = 9 := rfl
  omega

/-- The literal "/dev/pts/%d" in memory, apart from the buffer. -/
structure _root_.Spec.PtsFmt (m : Mem) (fmt buf len : Nat) : Prop where
  text : m.IsStr fmt (ptsDir ++ [37#8, 100#8])
  disjoint : fmt + 12 ≤ buf ∨ buf + len ≤ fmt

theorem sprintf_pts {miniBuf : Nat} {junk : Nat → Byte} {m : Mem} {fmt buf n : Nat} (hn : n < 2147483648) (hb : 47 ≤ miniBuf)
    (hm : m.Mapped buf ((ptsName n).length + 1)) (hf : PtsFmt m fmt buf ((ptsName n).length + 1)) :
    sprintf miniBuf junk m buf fmt [.int (BitVec.ofNat 32 n)] = .ok (m.write buf (ptsName n ++ [0#8]), ((ptsName n).length : Int), false) := by
  have htxt : fmtText (ptsItems n) = ptsDir ++ [37#8, 100#8] := rfl
  have hargs : fmtArgs (ptsItems n) = [.int (BitVec.ofNat 32 n)] := rfl
  have h2 : (BitVec.ofNat 32 n).toInt = n := by
    rw [BitVec.toInt_eq_toNat_cond, BitVec.toNat_ofNat, Nat.mod_eq_of_lt (by omega), if_pos (by omega)]
  have hlen := ptsName_len hn
  have hmem : ∀ it ∈ ptsItems n, (∃ c, it = .lit c ∧ c ≠ 0#8 ∧ c ≠ 37#8) ∨ it = .conv [] false [] (.dec (BitVec.ofNat 32 n)) := by
    intro it hit
    simp only [ptsItems, List.mem_append, List.mem_map, List.mem_singleton] at hit
    rcases hit with ⟨c, hc, rfl⟩ | h
    · left
      have : ∀ c ∈ ptsDir, c ≠ 0#8 ∧ c ≠ 37#8 := by decide
      exact ⟨c, rfl, this c hc⟩
    · exact Or.inr h
  have hr := render_pts hn
  have hc : SpCall m buf fmt (ptsItems n) := by
    refine ⟨by rw [hr]; exact hm, fun it hit => ?_, ?_, ?_⟩
    · rcases hmem it hit with ⟨c, rfl, h1, h2⟩ | rfl
      · exact ⟨⟨h1, h2⟩, trivial⟩
      · exact ⟨⟨by simp, ⟨by simp, by simp, show ∀ d, d < 10 → 100#8 ≠ BitVec.ofNat 8 (48 + d) by decide⟩, rfl, Nat.zero_le _⟩, trivial⟩
    · rw [htxt, holds_append]; exact ⟨hf.text.1, by rw [holds_cons]; exact ⟨hf.text.2.1, by intro i hi; cases hi⟩⟩
    · rw [htxt, hr]
      have := hf.disjoint
      have e : (ptsDir ++ [37#8, 100#8]).length = 11 := rfl
      omega
  have := C86_sprintf_partial (miniBuf := miniBuf) (junk := junk) hc (fun it hit => by
    rcases hmem it hit with ⟨c, rfl, _⟩ | rfl
    · trivial
    · exact Or.inl ⟨rfl, by omega, fun h => by cases h⟩) (by rw [hr, show spare (ptsItems n) = 27 from rfl]; omega)
  rw [hargs, hr] at this
  exact this

/-- C86: the name of the slave is written with its NUL, and 0 answered, if it is shorter than `len`; ERANGE otherwise; the number of the error if the
descriptor is no pseudo terminal, and then nothing is written.  (Missing: that no more than `len` bytes are written; see below.) -/
theorem C86_ptsname_r_partial {miniBuf : Nat} {junk : Nat → Byte} {m : Mem} {K : TtyTab} {fmt buf : Nat} {fd len : Int} (hbuf : buf ≠ 0) (hb : 47 ≤ miniBuf) :
    (∀ e, kPtn K fd = .error e → ptsname_r miniBuf junk m K fmt fd buf len = .ok (m, -e, false)) ∧
    (∀ n, kPtn K fd = .ok n → n < 2147483648 → m.Mapped buf ((ptsName n).length + 1) → PtsFmt m fmt buf ((ptsName n).length + 1) →
      ptsname_r miniBuf junk m K fmt fd buf len
        = .ok (m.write buf (ptsName n ++ [0#8]), if ((ptsName n).length : Int) < len then 0 else 34, false)) := by
  constructor
  · intro e he
    simp [ptsname_r, he]
  · intro n hK hn hm hf
    simp only [ptsname_r, hK, if_neg hbuf]
    rw [sprintf_pts hn hb hm hf]
    simp only [Res.ok_bind, Res.pure_eq, Res.ok.injEq, Prod.mk.injEq, and_true, true_and]
    split <;> split <;> omega

/-- C86 fails: a buffer that is too short is overrun: the byte behind the `len` bytes is overwritten, for every terminal and every such length. -/
theorem C86_overrun_refuted {miniBuf : Nat} {junk : Nat → Byte} {m : Mem} {K : TtyTab} {fmt buf n len : Nat} {fd : Int} (hbuf : buf ≠ 0) (hb : 47 ≤ miniBuf)
    (hK : kPtn K fd = .ok n) (hn : n < 2147483648) (hm : m.Mapped buf ((ptsName n).length + 1)) (hf : PtsFmt m fmt buf ((ptsName n).length + 1))
    (hl : len ≤ (ptsName n).length) :
    ∃ m', ptsname_r miniBuf junk m K fmt fd buf len = .ok (m', 34, false) ∧ m' (buf + len) = some ((ptsName n ++ [0#8]).getD len 0#8) := by
  have e := (C86_ptsname_r_partial (junk := junk) (len := len) (fd := fd) hbuf hb).2 n hK hn hm hf
  rw [if_neg (by omega)] at e
  refine ⟨_, e, ?_⟩
  have hi : len < (ptsName n ++ [0#8]).length := by simp; omega
  rw [write_holds m buf _ len hi, List.getD_eq_getElem?_getD, List.getElem?_eq_getElem hi]
  rfl

/-- C86 fails: without a buffer, for which musl answers ERANGE, the name is written to address 0. -/
theorem C86_null_refuted {miniBuf : Nat} {junk : Nat → Byte} {m : Mem} {K : TtyTab} {fmt n : Nat} {fd len : Int} (hK : kPtn K fd = .ok n)
    (hf : m.IsStr fmt (ptsDir ++ [37#8, 100#8])) (h0 : m 0 = none) : ptsname_r miniBuf junk m K fmt fd 0 len = .ub := by
  have hc : m (fmt + 0) = some 47#8 := hf.1 0 (by decide)
  simp only [ptsname_r, hK]
  unfold sprintf vsnprintf
  rw [vsnprintfLoop, load_some hc]
  simp only [Res.ok_bind]
  rw [if_pos (by decide), pfItem, if_neg (by decide), pfChar]
  rw [store_none (by simpa using h0)]
  rfl

/-- C86: the static buffer of ptsname suffices for every terminal; the answer is the name, or NULL with errno set. -/
theorem C86_ptsname {miniBuf : Nat} {junk : Nat → Byte} {m : Mem} {K : TtyTab} {fmt sbuf : Nat} {fd : Int} (hbuf : sbuf ≠ 0) (hb : 47 ≤ miniBuf)
    (hm : m.Mapped sbuf 22) (hf : PtsFmt m fmt sbuf 22) :
    (∀ e, kPtn K fd = .error e → e < 0 → ptsname miniBuf junk m K fmt sbuf fd = .ok (m, 0, -e, false)) ∧
    (∀ n, kPtn K fd = .ok n → n < 2147483648 →
      ∃ m', ptsname miniBuf junk m K fmt sbuf fd = .ok (m', sbuf, 0, false) ∧ m'.IsStr sbuf (ptsName n) ∧ ∀ a, (a < sbuf ∨ sbuf + 22 ≤ a) → m' a = m a) := by
  constructor
  · intro e he hneg
    rw [ptsname, (C86_ptsname_r_partial hbuf hb).1 e he]
    simp only [Res.ok_bind]
    rw [if_pos (by omega)]
    rfl
  · intro n hK hn
    have hl := ptsName_len hn
    refine ⟨m.write sbuf (ptsName n ++ [0#8]), ?_, ⟨(holds_append.mp (write_holds _ _ _)).1, (holds_cons.mp (holds_append.mp (write_holds _ _ _)).2).1, ?_⟩, fun a ha => write_outside _ _ _ _ (by
      simp only [List.length_append, List.length_singleton]; omega)⟩
    · rw [ptsname, (C86_ptsname_r_partial hbuf hb).2 n hK hn (hm.mono (by omega)) ⟨hf.text, by have := hf.disjoint; omega⟩]
      have h22 : ((ptsName n).length : Int) < 22 := by omega
      simp only [Res.ok_bind, if_pos h22]
      rfl
    · intro c hc
      simp only [ptsName, List.mem_append] at hc
      rcases hc with h | h
      · have : ∀ c ∈ ptsDir, c ≠ 0#8 := by decide
        exact this c h
      · simp only [numeral, List.mem_map] at h
        obtain ⟨d, hd, rfl⟩ := h
        have := digitsOf_lt (b := 10) (by omega) _ hd
        have : ∀ d : Fin 10, digitChar false d ≠ 0#8 := by decide
        exact this ⟨d, by omega⟩

/-- C86 fails for grantpt, which should leave the slave to its user (mode 0620): the slave gets all access its master grants, so that a master open to
everybody, as /dev/ptmx is, opens the slave to everybody. -/
theorem C86_grantpt_refuted {miniBuf : Nat} {junk : Nat → Byte} {m : Mem} {K : TtyTab} {mode : Int → Option (BitVec 32)} {chmod : Nat → BitVec 32 → Int}
    {fmt sbuf n : Nat} {fd : Int} {md : BitVec 32} (hbuf : sbuf ≠ 0) (hb : 47 ≤ miniBuf) (hm : m.Mapped sbuf 22) (hf : PtsFmt m fmt sbuf 22)
    (hK : kPtn K fd = .ok n) (hn : n < 2147483648) (hmd : mode fd = some md) :
    ∃ m' w, grantpt miniBuf junk m K mode chmod fmt sbuf fd = .ok (m', if chmod sbuf w < 0 then -1 else 0, some (sbuf, w)) ∧ m'.IsStr sbuf (ptsName n) ∧
      ∀ i, w.getLsbD i = (md.getLsbD i || [4, 7, 8].contains i) := by
  obtain ⟨m', e, h1, _⟩ := (C86_ptsname (junk := junk) (K := K) (fd := fd) hbuf hb hm hf).2 n hK hn
  refine ⟨m', md ||| 0o400#32 ||| 0o200#32 ||| 0o020#32, by rw [grantpt, hmd]; simp only [e, Res.ok_bind, Res.pure_eq], h1, fun i => ?_⟩
  have e1 : ∀ i, (0o400#32 : BitVec 32).getLsbD i = (i == 8) := by
    intro i
    by_cases h : i < 32
    · have : ∀ j : Fin 32, (0o400#32 : BitVec 32).getLsbD j = (j.val == 8) := by decide
      exact this ⟨i, h⟩
    · rw [BitVec.getLsbD_of_ge _ _ (by omega)]; simp; omega
  have e2 : ∀ i, (0o200#32 : BitVec 32).getLsbD i = (i == 7) := by
    intro i
    by_cases h : i < 32
    · have : ∀ j : Fin 32, (0o200#32 : BitVec 32).getLsbD j = (j.val == 7) := by decide
      exact this ⟨i, h⟩
    · rw [BitVec.getLsbD_of_ge _ _ (by omega)]; simp; omega
  have e3 : ∀ i, (0o020#32 : BitVec 32).getLsbD i = (i == 4) := by
    intro i
    by_cases h : i < 32
    · have : ∀ j : Fin 32, (0o020#32 : BitVec 32).getLsbD j = (j.val == 4) := by decide
      exact this ⟨i, h⟩
    · rw [BitVec.getLsbD_of_ge _ _ (by omega)]; simp; omega
  simp only [BitVec.getLsbD_or, e1, e2, e3, List.contains_cons, List.contains_nil, Bool.or_false]
  cases md.getLsbD i <;> cases (i == 4) <;> cases (i == 7) <;> cases (i == 8) <;> rfl

/-- A memory with the literal at 10 and a buffer of 22 bytes at 100. -/
def exPtsMem : Mem := fun a =>
  if a < 10 then none else if a < 22 then some ((ptsDir ++ [37#8, 100#8, 0#8]).getD (a - 10) 0#8) else if 100 ≤ a ∧ a < 122 then some 7#8 else none

/-- Pseudo terminal 17 at descriptor 4. -/
def exPtsTab : TtyTab := fun fd => if fd = 4 then some ⟨⟨0, 0, 0, 0, 0, []⟩, 0, fun _ => 0, .ok 17, fun _ => -22⟩ else none

/-- `ptsname(4)` is "/dev/pts/17", `ptsname(5)` is NULL; with `len` 5 the sixth byte of the buffer is overwritten. -/
example (junk : Nat → Byte) : (∃ m', ptsname 4096 junk exPtsMem exPtsTab 10 100 4 = .ok (m', 100, 0, false) ∧
      m'.IsStr 100 [47, 100, 101, 118, 47, 112, 116, 115, 47, 49, 55]) ∧
    ptsname 4096 junk exPtsMem exPtsTab 10 100 5 = .ok (exPtsMem, 0, 25, false) ∧
    ∃ m', ptsname_r 4096 junk exPtsMem exPtsTab 10 4 100 5 = .ok (m', 34, false) ∧ m' 105 = some 112#8 := by
  have hf : PtsFmt exPtsMem 10 100 22 := ⟨by unfold Mem.IsStr Mem.Holds; decide +kernel, by omega⟩
  have hm : exPtsMem.Mapped 100 22 := by
    intro i hi
    exact ⟨7#8, by unfold exPtsMem; rw [if_neg (by omega), if_neg (by omega), if_pos (by omega)]⟩
  have h17 : ptsName 17 = [47, 100, 101, 118, 47, 112, 116, 115, 47, 49, 55] := by decide +kernel
  have h := fun fd => C86_ptsname (junk := junk) (K := exPtsTab) (miniBuf := 4096) (fd := fd) (by decide) (by decide) hm hf
  refine ⟨?_, (h 5).1 (-25) rfl (by decide), ?_⟩
  · obtain ⟨m', e, h1, _⟩ := (h 4).2 17 rfl (by decide)
    rw [h17] at h1
    exact ⟨m', e, h1⟩
  · have := C86_overrun_refuted (junk := junk) (K := exPtsTab) (miniBuf := 4096) (fd := 4) (n := 17) (len := 5) (fmt := 10) (by decide) (by decide) rfl
      (by decide) (hm.mono (by rw [h17]; decide)) ⟨hf.text, by rw [h17]; decide⟩ (by rw [h17]; decide)
    obtain ⟨m', e, h1⟩ := this
    rw [h17] at h1
    exact ⟨m', e, h1⟩

/-- `sprintf(buf, "a%05d", 42)`, with 7 bytes for "a00042" and its NUL. -/
example (junk : Nat → Byte) : sprintf 4096 junk (pfMem [97, 37, 48, 53, 100, 0] [0] 7) 100 10 [.int 42#32]
    = .ok ((pfMem [97, 37, 48, 53, 100, 0] [0] 7).write 100 [97, 48, 48, 48, 52, 50, 0], 6, false) := by
  have hr : render [.lit 97#8, .conv [] true [5] (.dec 42#32)] = [97, 48, 48, 48, 52, 50] := by decide +kernel
  have := @C86_sprintf_partial 4096 junk (pfMem [97, 37, 48, 53, 100, 0] [0] 7) 100 10 [.lit 97#8, .conv [] true [5] (.dec 42#32)]
    ⟨by rw [hr]; decide +kernel, by rw [hr]; decide +kernel, by decide +kernel, by rw [hr]; decide +kernel⟩ (by decide +kernel) (by rw [hr]; decide)
  rw [hr] at this
  exact this

/-! ### C87 -/

/-- "COLUMNS". -/
def _root_.Spec.columns : List Byte := [67, 79, 76, 85, 77, 78, 83]

/-- The text of a list of digits. -/
def _root_.Spec.digitText (ds : List Nat) : List Byte := ds.map (fun d => BitVec.ofNat 8 (48 + d))

theorem widthLoop_eq {m : Mem} : ∀ (ds : List Nat) (p v : Nat), (∀ d ∈ ds, d < 10) → m.IsStr p (digitText ds) → v ≤ 2147483599 →
    widthLoop m p v = if ds.foldl (fun a d => a * 10 + d) v ≤ 2147483599 then .ok ((ds.foldl (fun a d => a * 10 + d) v : Nat) : Int) else .ub := by
  intro ds
  induction ds with
  | nil =>
    intro p v _ hs hv
    rw [widthLoop, load_some (isStr_nil.mp hs)]
    simp only [Res.ok_bind]
    rw [if_neg (by simp), List.foldl_nil, if_pos hv]
    rfl
  | cons d ds ih =>
    intro p v hd hs hv
    have hd0 := hd d (by simp)
    have hs' : m.IsStr p (BitVec.ofNat 8 (48 + d) :: digitText ds) := hs
    rw [isStr_cons] at hs'
    have hc : (BitVec.ofNat 8 (48 + d)).toInt = 48 + d := by
      rw [BitVec.toInt_eq_toNat_cond, BitVec.toNat_ofNat, Nat.mod_eq_of_lt (by omega), if_pos (by omega)]
      omega
    have hmono : ∀ (l : List Nat) (w : Nat), w ≤ l.foldl (fun a d => a * 10 + d) w := by
      intro l
      induction l with
      | nil => intro w; exact Nat.le_refl _
      | cons x l ih2 => intro w; exact Nat.le_trans (by omega) (ih2 (w * 10 + x))
    rw [widthLoop, load_some hs'.1]
    simp only [Res.ok_bind]
    rw [if_pos hs'.2.1, hc, List.foldl_cons]
    by_cases hb : v * 10 + d ≤ 2147483599
    · have e1 : ckInt ((v : Int) * 10) = .ok ((v : Int) * 10) := by unfold ckInt; rw [if_pos (by omega)]
      have e2 : ckInt ((v : Int) * 10 + (48 + d)) = .ok ((v : Int) * 10 + (48 + d)) := by unfold ckInt; rw [if_pos (by omega)]
      have e3 : ckInt ((v : Int) * 10 + (48 + d) - 48) = .ok (((v * 10 + d : Nat)) : Int) := by
        unfold ckInt; rw [if_pos (by omega)]; congr 1; omega
      rw [e1]; simp only [Res.ok_bind]
      rw [e2]; simp only [Res.ok_bind]
      rw [e3]; simp only [Res.ok_bind]
      exact ih _ _ (fun x hx => hd x (by simp [hx])) hs'.2.2 hb
    · rw [if_neg (by have := hmono ds (v * 10 + d); omega)]
      unfold ckInt
      by_cases h1 : (v : Int) * 10 ≤ 2147483647
      · rw [if_pos (by omega)]
        simp only [Res.ok_bind]
        rw [if_neg (by omega)]
        rfl
      · rw [if_neg (by omega)]
        rfl

/-- C87 in full: the number in COLUMNS, and 80 if there is no (proper) number. -/
def C87_full : Prop := ∀ (m : Mem) (name : Nat) (env : List Nat) (es : List (List Byte)), m.IsStr name columns → EnvStrings m env es → columns ∉ es →
  term_width m name env = .ok (match firstEntry columns es with
    | none => 80
    | some x => if x.2 ≠ [] ∧ (∀ c ∈ x.2, 48 ≤ c.toNat ∧ c.toNat < 58) ∧ valueOf 10 (x.2.map (fun c => c.toNat - 48)) ≤ 2147483647
        then ((valueOf 10 (x.2.map (fun c => c.toNat - 48)) : Nat) : Int) else 80)

theorem EnvStrings.entry {m : Mem} {s : List Byte} : ∀ {arr : List Nat} {es : List (List Byte)} {x : Nat × List Byte}, EnvStrings m arr es →
    firstEntry s es = some x → arr.getD x.1 0 ≠ 0 ∧ m.IsStr (arr.getD x.1 0 + (s.length + 1)) x.2
  | _, [], _, _, hx => by cases hx
  | [], _ :: _, _, h, _ => by cases h
  | p :: arr, e :: es, x, h, hx => by
    obtain ⟨h1, h2, h3⟩ := h
    rw [firstEntry] at hx
    by_cases hp : (s ++ [61#8]).isPrefixOf e
    · rw [if_pos hp] at hx
      cases hx
      refine ⟨h1, ?_⟩
      obtain ⟨v, rfl⟩ := List.isPrefixOf_iff_prefix.1 hp
      obtain ⟨g1, g2, g3⟩ := h2
      rw [show s.length + 1 = (s ++ [61#8]).length by simp, List.drop_left]
      simp only [List.getD_cons_zero]
      rw [holds_append] at g1
      refine ⟨g1.2, ?_, fun b hb => g3 b (by simp [hb])⟩
      rw [← g2]
      congr 1
      simp only [List.length_append]; omega
    · rw [if_neg hp] at hx
      cases hf : firstEntry s es with
      | none => rw [hf] at hx; cases hx
      | some y =>
        rw [hf] at hx
        cases hx
        have := EnvStrings.entry h3 hf
        simpa using this

theorem term_width_eq {m : Mem} {name : Nat} {env : List Nat} {es : List (List Byte)} (hn : m.IsStr name columns) (he : EnvStrings m env es)
    (hb : columns ∉ es) {i : Nat} {v : List Byte} (hx : firstEntry columns es = some (i, v)) :
    ∃ p, m.IsStr p v ∧ term_width m name env = widthLoop m p 0 := by
  obtain ⟨h1, h2⟩ := EnvStrings.entry he hx
  refine ⟨_, h2, ?_⟩
  rw [term_width, C45_getenv_partial hn he hb, hx]
  simp only [Res.ok_bind]
  rw [if_neg (by omega)]

/-- C87: without COLUMNS in the environment, 80; with a number, up to 2147483599, that number.  (Missing: larger numbers and other text, see below.) -/
theorem C87_width_partial {m : Mem} {name : Nat} {env : List Nat} {es : List (List Byte)} (hn : m.IsStr name columns) (he : EnvStrings m env es)
    (hb : columns ∉ es) :
    (firstEntry columns es = none → term_width m name env = .ok 80) ∧
    ∀ i ds, firstEntry columns es = some (i, digitText ds) → (∀ d ∈ ds, d < 10) → valueOf 10 ds ≤ 2147483599 →
      term_width m name env = .ok ((valueOf 10 ds : Nat) : Int) := by
  constructor
  · intro h
    rw [term_width, C45_getenv_partial hn he hb, h]
    rfl
  · intro i ds hx hd hv
    obtain ⟨p, h1, e⟩ := term_width_eq hn he hb hx
    have := widthLoop_eq ds p 0 hd h1 (by omega)
    rw [show ds.foldl (fun a d => a * 10 + d) 0 = valueOf 10 ds from rfl, if_pos hv] at this
    rw [e]
    exact this

/-- C87 fails for larger numbers: the behaviour is undefined, even for numbers that are an `int`. -/
theorem C87_overflow_refuted {m : Mem} {name : Nat} {env : List Nat} {es : List (List Byte)} (hn : m.IsStr name columns) (he : EnvStrings m env es)
    (hb : columns ∉ es) {i : Nat} {ds : List Nat} (hx : firstEntry columns es = some (i, digitText ds)) (hd : ∀ d ∈ ds, d < 10)
    (hv : 2147483600 ≤ valueOf 10 ds) : term_width m name env = .ub := by
  obtain ⟨p, h1, e⟩ := term_width_eq hn he hb hx
  have := widthLoop_eq ds p 0 hd h1 (by omega)
  rw [show ds.foldl (fun a d => a * 10 + d) 0 = valueOf 10 ds from rfl, if_neg (show ¬ valueOf 10 ds ≤ 2147483599 by omega)] at this
  rw [e]
  exact this

/-- The name at 10 and an entry at 20, with a NUL behind each. -/
def exColMem (v : List Byte) : Mem := fun a =>
  if a < 10 then none else if a < 18 then some ((columns ++ [0#8]).getD (a - 10) 0#8) else if a < 20 then none
  else if a < 29 + v.length then some ((columns ++ 61#8 :: v ++ [0#8]).getD (a - 20) 0#8) else none

/-- C87 fails for other text: COLUMNS=x gives 72 columns, an empty COLUMNS none. -/
theorem C87_text_refuted : ¬ C87_full ∧ term_width (exColMem [120#8]) 10 [20, 0] = .ok 72 ∧ term_width (exColMem []) 10 [20, 0] = .ok 0 := by
  have hn : ∀ v, (exColMem v).IsStr 10 columns := by
    intro v
    refine ⟨fun i hi => ?_, ?_, by decide⟩
    · have : i < 7 := hi
      have h : exColMem v (10 + i) = some ((columns ++ [0#8]).getD (10 + i - 10) 0#8) := by
        unfold exColMem; rw [if_neg (by omega), if_pos (by omega)]
      rw [h, show 10 + i - 10 = i by omega, List.getD_eq_getElem?_getD, List.getElem?_append_left hi, List.getElem?_eq_getElem hi]
      rfl
    · rfl
  have h1 : term_width (exColMem [120#8]) 10 [20, 0] = .ok 72 := by
    obtain ⟨p, g, e⟩ := term_width_eq (m := exColMem [120#8]) (env := [20, 0]) (es := [columns ++ [61#8, 120#8]]) (i := 0) (v := [120#8]) (hn _)
      ⟨by decide, by unfold Mem.IsStr Mem.Holds; decide +kernel, rfl⟩ (by decide) (by decide)
    rw [e, widthLoop, load_some (isStr_cons.mp g).1]
    simp only [Res.ok_bind]
    rw [if_pos (by decide)]
    have e1 : ckInt ((0 : Int) * 10) = .ok 0 := rfl
    have e2 : ckInt ((0 : Int) + (120#8 : Byte).toInt) = .ok 120 := rfl
    have e3 : ckInt ((120 : Int) - 48) = .ok 72 := rfl
    rw [e1]; simp only [Res.ok_bind]
    rw [e2]; simp only [Res.ok_bind]
    rw [e3]; simp only [Res.ok_bind]
    rw [widthLoop, load_some (isStr_nil.mp (isStr_cons.mp g).2.2)]
    rfl
  refine ⟨fun h => ?_, h1, ?_⟩
  · have := h (exColMem [120#8]) 10 [20, 0] [columns ++ [61#8, 120#8]] (hn _) ⟨by decide, by unfold Mem.IsStr Mem.Holds; decide +kernel, rfl⟩ (by decide)
    rw [h1] at this
    revert this
    decide +kernel
  · exact (C87_width_partial (m := exColMem []) (env := [20, 0]) (es := [columns ++ [61#8]]) (hn _)
      ⟨by decide, by unfold Mem.IsStr Mem.Holds; decide +kernel, rfl⟩ (by decide)).2 0 [] (by decide) (by simp) (by decide)

/-- COLUMNS=132. -/
example : term_width (exColMem [49, 51, 50]) 10 [20, 0] = .ok 132 :=
  (C87_width_partial (m := exColMem [49, 51, 50]) (env := [20, 0]) (es := [columns ++ [61, 49, 51, 50]])
    (by unfold Mem.IsStr Mem.Holds; decide +kernel) ⟨by decide, by unfold Mem.IsStr Mem.Holds; decide +kernel, rfl⟩ (by decide)).2 0 [1, 3, 2] (by decide) (by decide) (by decide)

/-- C86: `vsprintf` of the same. -/
example (junk : Nat → Byte) : vsprintf junk (pfMem [97, 37, 48, 53, 100, 0] [0] 7) 100 10 [.int 42#32]
    = .ok ((pfMem [97, 37, 48, 53, 100, 0] [0] 7).write 100 [97, 48, 48, 48, 52, 50, 0], 6, false) := by
  have hr : render [.lit 97#8, .conv [] true [5] (.dec 42#32)] = [97, 48, 48, 48, 52, 50] := by decide +kernel
  have := @C86_vsprintf_partial junk (pfMem [97, 37, 48, 53, 100, 0] [0] 7) 100 10 [.lit 97#8, .conv [] true [5] (.dec 42#32)]
    ⟨by rw [hr]; decide +kernel, by rw [hr]; decide +kernel, by decide +kernel, by rw [hr]; decide +kernel⟩ (by decide +kernel) (by rw [hr]; decide)
  rw [hr] at this
  exact this

/-- C86: `ptsname_r` with room for the name, and of a descriptor that is no terminal. -/
example (junk : Nat → Byte) : (∃ m', ptsname_r 4096 junk exPtsMem exPtsTab 10 4 100 12 = .ok (m', 0, false)) ∧
    ptsname_r 4096 junk exPtsMem exPtsTab 10 5 100 12 = .ok (exPtsMem, 25, false) := by
  have hf : PtsFmt exPtsMem 10 100 22 := ⟨by unfold Mem.IsStr Mem.Holds; decide +kernel, by omega⟩
  have hm : exPtsMem.Mapped 100 22 := by
    intro i hi
    exact ⟨7#8, by unfold exPtsMem; rw [if_neg (by omega), if_neg (by omega), if_pos (by omega)]⟩
  have h17 : ptsName 17 = [47, 100, 101, 118, 47, 112, 116, 115, 47, 49, 55] := by decide +kernel
  have h := (C86_ptsname_r_partial (junk := junk) (K := exPtsTab) (miniBuf := 4096) (fd := 4) (len := 12) (by decide) (by decide)).2 17 rfl (by decide)
    (hm.mono (by rw [h17]; decide)) ⟨hf.text, by rw [h17]; decide⟩
  rw [if_pos (by rw [h17]; decide)] at h
  exact ⟨⟨_, h⟩, (C86_ptsname_r_partial (junk := junk) (K := exPtsTab) (miniBuf := 4096) (fd := 5) (by decide) (by decide)).1 (-25) rfl⟩

end Minilib

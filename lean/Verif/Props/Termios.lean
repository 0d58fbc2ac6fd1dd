import Verif.Lemmas.Termios
import Verif.Spec.Termios
/-
C85: terminal settings.
-/

set_option autoImplicit false

namespace Minilib
open Mem

theorem termAt_bytesS {m : Mem} {a : Nat} {t : KTerm} : m.Holds a t.bytesS ↔ Spec.TermAt m a t := by
  unfold KTerm.bytesS
  simp only [holds_append, holds_cons, length_wordBytes]
  constructor
  · rintro ⟨h1, h2, h3, h4, h5, h6⟩
    exact ⟨h1, h2, h3, h4, h5, h6⟩
  · intro h
    exact ⟨h.iflag, h.oflag, h.cflag, h.lflag, h.line, h.cc⟩

theorem kReadS_eq {m : Mem} {a : Nat} {t : KTerm} (h : Spec.TermAt m a t) (hl : t.cc.length = 19) : kReadS m a = .ok t := by
  unfold kReadS
  have := loadBytes_holds h.cc
  rw [hl] at this
  rw [loadW_eq h.iflag, Res.ok_bind, loadW_eq h.oflag, Res.ok_bind, loadW_eq h.cflag, Res.ok_bind, loadW_eq h.lflag, Res.ok_bind, load_some h.line,
    Res.ok_bind, this, Res.ok_bind]
  rfl

theorem tcgetattrH_eq {m : Mem} {K : TtyTab} {fd : Int} {io : Nat} {t : Tty} (hK : K fd = some t) (hm : m.Mapped io 36) :
    tcgetattrH m K fd io = (m.write io t.term.bytesS, 0) := by
  obtain ⟨l, hl⟩ := mapped_loadBytes hm
  simp [tcgetattrH, kIoctl, hK, hl]

theorem tcgetattr_eq {m : Mem} {K : TtyTab} {fd : Int} {io : Nat} {t : Tty} (hK : K fd = some t) (hm : m.Mapped io 18) :
    tcgetattr m K fd io = (m.write io t.term.bytesA, 0) := by
  obtain ⟨l, hl⟩ := mapped_loadBytes hm
  simp [tcgetattr, kIoctl, hK, hl]

theorem tcsetattrH_eq {m : Mem} {K : TtyTab} {fd opt : Int} {io : Nat} {t : Tty} {s : KTerm} (hK : K fd = some t) (ho : opt = 0 ∨ opt = 1 ∨ opt = 2)
    (h : Spec.TermAt m io s) (hl : s.cc.length = 19) : tcsetattrH m K fd opt io = (m, K.setTerm fd t s, 0) := by
  have e := kReadS_eq h hl
  rcases ho with rfl | rfl | rfl <;> simp [tcsetattrH, kIoctl, hK, e]

theorem tcsetattr_eq {m : Mem} {K : TtyTab} {fd opt : Int} {io : Nat} {t : Tty} {s : KTerm} (hK : K fd = some t) (ho : opt = 0 ∨ opt = 1 ∨ opt = 2)
    (h : kReadA t.term m io = .ok s) : tcsetattr m K fd opt io = (m, K.setTerm fd t s, 0) := by
  rcases ho with rfl | rfl | rfl <;> simp [tcsetattr, kIoctl, hK, h]

/-- C85: cfmakeraw changes a struct as the manual says, and nothing else. -/
theorem C85_cfmakeraw {m : Mem} {tp : Nat} {t : KTerm} (h : Spec.TermAt m tp t) (hl : 7 ≤ t.cc.length) :
    ∃ m' t', cfmakeraw m tp = .ok m' ∧ Spec.TermAt m' tp t' ∧ Spec.RawMode t t' ∧
      ∀ a, (a < tp ∨ tp + 17 + t.cc.length ≤ a) → m' a = m a := by
  have hv : m.Mapped (tp + 22) 2 := by
    have := h.cc.mapped
    intro i hi
    have := this (5 + i) (by omega)
    rwa [show tp + 17 + (5 + i) = tp + 22 + i by omega] at this
  obtain ⟨m', e, g1, g2, g3, g4, g5, g6, f⟩ := cfmakeraw_spec h.iflag h.oflag h.cflag h.lflag hv
  refine ⟨m', ⟨_, _, _, _, t.line, (t.cc.set 6 1#8).set 5 0#8⟩, e, ⟨g1, g2, g3, g4, ?_, ?_⟩, ⟨?_, ?_, ?_, ?_, rfl, rfl⟩, fun a ha => f a (by omega) (by omega) (by omega)⟩
  · show m' (tp + 16) = _
    rw [f _ (by omega) (by omega) (by omega), h.line]
  · intro i hi
    show m' (tp + 17 + i) = _
    rw [List.length_set, List.length_set] at hi
    by_cases h5 : i = 5
    · subst h5
      rw [show tp + 17 + 5 = tp + 22 by omega, g5]
      simp
    · by_cases h6 : i = 6
      · subst h6
        rw [show tp + 17 + 6 = tp + 23 by omega, g6]
        simp
      · rw [f _ (by omega) (by omega) (by omega), h.cc i hi]
        simp [List.getElem_set, Ne.symm h5, Ne.symm h6]
  · intro i hi
    have : ∀ j : Fin 32, rawI.getLsbD j = [0, 1, 3, 5, 6, 7, 8, 10].contains j.val := by decide
    have := this ⟨i, hi⟩
    simp only [] at this
    simp only [BitVec.getLsbD_and, BitVec.getLsbD_not, this, hi, decide_true, Bool.true_and]
  · intro i hi
    have : ∀ j : Fin 32, (1#32).getLsbD j = [0].contains j.val := by decide
    have := this ⟨i, hi⟩
    simp only [] at this
    simp only [BitVec.getLsbD_and, BitVec.getLsbD_not, this, hi, decide_true, Bool.true_and]
  · intro i hi
    have : ∀ j : Fin 32, rawL.getLsbD j = [0, 1, 3, 6, 15].contains j.val := by decide
    have := this ⟨i, hi⟩
    simp only [] at this
    simp only [BitVec.getLsbD_and, BitVec.getLsbD_not, this, hi, decide_true, Bool.true_and]
  · intro i hi
    have e1 : ∀ j : Fin 32, rawC.getLsbD j = ((j.val == 4) || (j.val == 5) || (j.val == 8)) := by decide
    have e2 : ∀ j : Fin 32, (0x30#32).getLsbD j = ((j.val == 4) || (j.val == 5)) := by decide
    have e1 := e1 ⟨i, hi⟩
    have e2 := e2 ⟨i, hi⟩
    simp only [] at e1 e2
    simp only [BitVec.getLsbD_and, BitVec.getLsbD_or, BitVec.getLsbD_not, e1, e2, hi, decide_true, Bool.true_and]
    cases t.cflag.getLsbD i <;> cases (i == 4) <;> cases (i == 5) <;> cases (i == 8) <;> rfl

/-- C85, with the definitions of include/tcgetattr.h and include/tcsetattr.h: the settings are read, and written back as they are in the struct, and
other terminals keep theirs; reading, cfmakeraw and writing back gives raw mode.  (Missing: the definitions that are compiled, see below.) -/
theorem C85_settings_partial {m : Mem} {K : TtyTab} {fd : Int} {io : Nat} {t : Tty} (hK : K fd = some t) (hc : t.term.cc.length = 19) (hm : m.Mapped io 60) :
    (∃ m', tcgetattrH m K fd io = (m', 0) ∧ Spec.TermAt m' io t.term ∧
      ∃ m'' t', cfmakeraw m' io = .ok m'' ∧ Spec.RawMode t.term t' ∧ ∀ opt, (opt = 0 ∨ opt = 1 ∨ opt = 2) →
        ∃ K', tcsetattrH m'' K fd opt io = (m'', K', 0) ∧ K' fd = some { t with term := t' } ∧ ∀ f, f ≠ fd → K' f = K f) ∧
    (∀ s : KTerm, Spec.TermAt m io s → s.cc.length = 19 → ∀ opt, (opt = 0 ∨ opt = 1 ∨ opt = 2) →
        ∃ K', tcsetattrH m K fd opt io = (m, K', 0) ∧ K' fd = some { t with term := s } ∧ ∀ f, f ≠ fd → K' f = K f) := by
  have key : ∀ (m : Mem) (s : KTerm), Spec.TermAt m io s → s.cc.length = 19 → ∀ opt, (opt = 0 ∨ opt = 1 ∨ opt = 2) →
        ∃ K', tcsetattrH m K fd opt io = (m, K', 0) ∧ K' fd = some { t with term := s } ∧ ∀ f, f ≠ fd → K' f = K f := by
    intro m s hs hl opt ho
    exact ⟨_, tcsetattrH_eq hK ho hs hl, by simp [TtyTab.setTerm], fun f hf => by simp [TtyTab.setTerm, hf]⟩
  refine ⟨⟨_, tcgetattrH_eq hK (hm.mono (by omega)), termAt_bytesS.mp (write_holds _ _ _), ?_⟩, key m⟩
  obtain ⟨m'', t', e, h1, h2, _⟩ := C85_cfmakeraw (termAt_bytesS.mp (write_holds m io t.term.bytesS)) (by omega)
  exact ⟨m'', t', e, h2, key m'' t' h1 (by rw [h2.cc]; simp [hc])⟩

/-- C85: what is no terminal is told from what is one. -/
theorem C85_isatty {m : Mem} {K : TtyTab} {fd : Int} {term : Nat} (hm : m.Mapped term 60) : isatty m K fd term = if (K fd).isSome then 1 else 0 := by
  cases hK : K fd with
  | none => simp [isatty, tcgetattr, kIoctl, hK]
  | some t => simp [isatty, tcgetattr_eq hK (hm.mono (by omega))]

/-- C85: the settings that have been read can be written back, in any of the three ways, and nothing changes: with the definitions that are compiled. -/
theorem C85_restore {m : Mem} {K : TtyTab} {fd opt : Int} {io : Nat} {t : Tty} (hK : K fd = some t) (hc : t.term.cc.length = 19) (hm : m.Mapped io 60)
    (ho : opt = 0 ∨ opt = 1 ∨ opt = 2) :
    ∃ m' K', tcgetattr m K fd io = (m', 0) ∧ tcsetattr m' K fd opt io = (m', K', 0) ∧ ∀ f, K' f = K f := by
  have e := tcgetattr_eq hK (hm.mono (k := 18) (by omega))
  have h := write_holds m io t.term.bytesA
  refine ⟨_, _, e, tcsetattr_eq (s := t.term) hK ho ?_, ?_⟩
  · generalize m.write io t.term.bytesA = m1 at h
    unfold KTerm.bytesA at h
    simp only [holds_append, holds_cons, length_halfBytes, Nat.add_assoc, Nat.reduceAdd] at h
    obtain ⟨h1, h2, h3, h4, h5, h6, _⟩ := h
    have hl : (t.term.cc.take 8).length = 8 := by simp; omega
    have := loadBytes_holds h6
    rw [hl] at this
    unfold kReadA
    rw [loadH_half h1, Res.ok_bind, loadH_half h2, Res.ok_bind, loadH_half h3, Res.ok_bind, loadH_half h4, Res.ok_bind, load_some h5, Res.ok_bind, this,
      Res.ok_bind, word_join, word_join, word_join, word_join, List.take_append_drop]
    rfl
  · intro f
    by_cases hf : f = fd
    · subst hf; simp [TtyTab.setTerm, hK]
    · simp [TtyTab.setTerm, hf]

/-! ### Refuted -/

/-- C85, full statement: tcgetattr, cfmakeraw, tcsetattr puts the terminal into raw mode. -/
def C85_raw_full : Prop :=
  ∀ (m : Mem) (K : TtyTab) (fd : Int) (io : Nat) (t : Tty), K fd = some t → t.term.cc.length = 19 → m.Mapped io 60 →
    ∃ m' m'' K' t', tcgetattr m K fd io = (m', 0) ∧ cfmakeraw m' io = .ok m'' ∧ tcsetattr m'' K fd 0 io = (m'', K', 0) ∧ K' fd = some t' ∧
      Spec.RawMode t.term t'.term

/-- With the definitions that are compiled (the kernel fills an old `struct termio`), for every terminal: the local flags, ECHO and ICANON among them,
stay as they are, so does OPOST; the lowest bit of the control flags (the speed) is cleared, the line discipline is changed, and so are the
characters for interrupt, kill and end of file. -/
theorem C85_raw_refuted : ¬ C85_raw_full ∧
    ∀ (m : Mem) (K : TtyTab) (fd : Int) (io : Nat) (t : Tty), K fd = some t → t.term.cc.length = 19 → m.Mapped io 60 →
      ∃ m' m'' K' s, tcgetattr m K fd io = (m', 0) ∧ cfmakeraw m' io = .ok m'' ∧ tcsetattr m'' K fd 0 io = (m'', K', 0) ∧ K' fd = some { t with term := s } ∧
        s.lflag = t.term.lflag ∧ s.oflag = t.term.oflag ∧ s.cflag = t.term.cflag &&& ~~~1#32 ∧ s.line = t.term.line ||| 0x30#8 ∧
        s.cc[0]? = t.term.cc[0]?.map (· &&& 0xfe#8) ∧ s.cc[3]? = t.term.cc[3]?.map (· &&& 0xb4#8) ∧ s.cc[4]? = t.term.cc[4]?.map (· &&& 0x7f#8) ∧
        (∀ i, 4 < i ∨ i = 1 ∨ i = 2 → s.cc[i]? = t.term.cc[i]?) := by
  have key : ∀ (m : Mem) (K : TtyTab) (fd : Int) (io : Nat) (t : Tty), K fd = some t → t.term.cc.length = 19 → m.Mapped io 60 →
      ∃ m' m'' K' s, tcgetattr m K fd io = (m', 0) ∧ cfmakeraw m' io = .ok m'' ∧ tcsetattr m'' K fd 0 io = (m'', K', 0) ∧ K' fd = some { t with term := s } ∧
        s.lflag = t.term.lflag ∧ s.oflag = t.term.oflag ∧ s.cflag = t.term.cflag &&& ~~~1#32 ∧ s.line = t.term.line ||| 0x30#8 ∧
        s.cc[0]? = t.term.cc[0]?.map (· &&& 0xfe#8) ∧ s.cc[3]? = t.term.cc[3]?.map (· &&& 0xb4#8) ∧ s.cc[4]? = t.term.cc[4]?.map (· &&& 0x7f#8) ∧
        (∀ i, 4 < i ∨ i = 1 ∨ i = 2 → s.cc[i]? = t.term.cc[i]?) := by
    intro m K fd io t hK hc hm
    have e := tcgetattr_eq hK (hm.mono (k := 18) (by omega))
    have h := write_holds m io t.term.bytesA
    have hm1 := hm.write io t.term.bytesA
    obtain ⟨k0, k1, k2, k3, k4, k5, k6, k7, r, hcc⟩ : ∃ k0 k1 k2 k3 k4 k5 k6 k7 r, t.term.cc = k0 :: k1 :: k2 :: k3 :: k4 :: k5 :: k6 :: k7 :: r := by
      match hcc : t.term.cc with
      | k0 :: k1 :: k2 :: k3 :: k4 :: k5 :: k6 :: k7 :: r => exact ⟨_, _, _, _, _, _, _, _, _, rfl⟩
      | [] | [_] | [_, _] | [_, _, _] | [_, _, _, _] | [_, _, _, _, _] | [_, _, _, _, _, _] | [_, _, _, _, _, _, _] => rw [hcc] at hc; simp at hc
    generalize m.write io t.term.bytesA = m1 at h e hm1
    unfold KTerm.bytesA at h
    rw [hcc] at h
    simp only [halfBytes, half_low, half_high, List.take, List.cons_append, List.nil_append, holds_cons, Nat.add_assoc, Nat.reduceAdd] at h
    obtain ⟨a0, a1, a2, a3, a4, a5, a6, a7, a8, a9, a10, a11, a12, a13, a14, a15, a16, a17, _⟩ := h
    have hw : ∀ (a : Nat) (b0 b1 b2 b3 : Byte), m1 a = some b0 → m1 (a + 1) = some b1 → m1 (a + 2) = some b2 → m1 (a + 3) = some b3 →
        m1.HasW a (b3 ++ b2 ++ b1 ++ b0) := by
      intro a b0 b1 b2 b3 h0 h1 h2 h3
      unfold HasW
      rw [wordBytes_append]
      simp only [holds_cons, Nat.add_assoc, Nat.reduceAdd]
      exact ⟨h0, h1, h2, h3, holds_nil _ _⟩
    have w0 := hw _ _ _ _ _ a0 a1 a2 a3
    have w1 := hw _ _ _ _ _ a4 a5 a6 a7
    have w2 := hw _ _ _ _ _ a8 a9 a10 a11
    have w3 := hw _ _ _ _ _ a12 a13 a14 a15
    obtain ⟨m2, c1, c2, c3, c4, c5, _, _, f⟩ := cfmakeraw_spec w0 w1 w2 w3 (fun i hi => by
      have := hm1 (22 + i) (by omega); rwa [show io + (22 + i) = io + 22 + i by omega] at this)
    unfold HasW at c2 c3 c4 c5
    rw [wordBytes_and, wordBytes_append, show wordBytes (~~~rawI) = [0x14#8, 0xfa#8, 0xff#8, 0xff#8] by decide] at c2
    rw [wordBytes_and, wordBytes_append, show wordBytes (~~~1#32) = [0xfe#8, 0xff#8, 0xff#8, 0xff#8] by decide] at c3
    rw [wordBytes_or, wordBytes_and, wordBytes_append, show wordBytes (~~~rawC) = [0xcf#8, 0xfe#8, 0xff#8, 0xff#8] by decide,
      show wordBytes (0x30#32) = [0x30#8, 0#8, 0#8, 0#8] by decide] at c4
    rw [wordBytes_and, wordBytes_append, show wordBytes (~~~rawL) = [0xb4#8, 0x7f#8, 0xff#8, 0xff#8] by decide] at c5
    have hff : ∀ b : Byte, b &&& 0xff#8 = b := by decide
    have h00 : ∀ b : Byte, b ||| 0#8 = b := by decide
    have hl : ∀ b : Byte, b &&& 0xcf#8 ||| 0x30#8 = b ||| 0x30#8 := by decide
    simp only [List.zipWith, holds_cons, Nat.add_assoc, Nat.reduceAdd, hff, h00, hl] at c2 c3 c4 c5
    obtain ⟨d0, d1, d2, d3, _⟩ := c2
    obtain ⟨d4, d5, d6, d7, _⟩ := c3
    obtain ⟨d8, d9, d10, d11, _⟩ := c4
    obtain ⟨d12, d13, d14, d15, _⟩ := c5
    have d16 : m2 (io + 16) = some k7 := by rw [f _ (by omega) (by omega) (by omega)]; exact a16
    have hr : kReadA t.term m2 io = .ok ⟨t.term.iflag.extractLsb' 16 16 ++ ((t.term.iflag.extractLsb' 8 8 &&& 0xfa#8) ++ (t.term.iflag.extractLsb' 0 8 &&& 0x14#8)),
        t.term.oflag, t.term.cflag &&& ~~~1#32, t.term.lflag, t.term.line ||| 0x30#8,
        (k0 &&& 0xfe#8) :: k1 :: k2 :: (k3 &&& 0xb4#8) :: (k4 &&& 0x7f#8) :: k5 :: k6 :: k7 :: r⟩ := by
      unfold kReadA
      rw [loadH_bytes d0 d1, Res.ok_bind, loadH_bytes d2 d3, Res.ok_bind, loadH_bytes d4 d5, Res.ok_bind, loadH_bytes d6 d7, Res.ok_bind, load_some d8,
        Res.ok_bind]
      have hb : m2.Holds (io + 9) [k0 &&& 0xfe#8, k1, k2, k3 &&& 0xb4#8, k4 &&& 0x7f#8, k5, k6, k7] := by
        simp only [holds_cons, Nat.add_assoc, Nat.reduceAdd]
        exact ⟨d9, d10, d11, d12, d13, d14, d15, d16, holds_nil _ _⟩
      have := loadBytes_holds hb
      simp only [List.length_cons, List.length_nil, Nat.reduceAdd] at this
      rw [this, Res.ok_bind, word_parts, low_bit, word_parts, hcc]
      rfl
    refine ⟨m1, m2, _, _, e, c1, tcsetattr_eq hK (.inl rfl) hr, if_pos rfl, rfl, rfl, rfl, rfl, by simp [hcc], by simp [hcc], by simp [hcc], ?_⟩
    intro i hi
    simp only [hcc]
    match i, hi with
    | 0, h => omega
    | 1, _ | 2, _ => rfl
    | 3, h => omega
    | 4, h => omega
    | n + 5, _ => rfl
  refine ⟨fun hf => ?_, key⟩
  obtain ⟨t, ht, hc⟩ : ∃ t : Tty, t.term.lflag = 2#32 ∧ t.term.cc.length = 19 := ⟨⟨⟨0, 0, 0, 2#32, 0, List.replicate 19 0#8⟩, 0, fun _ => 0, .ok 0, fun _ => 0⟩, rfl, rfl⟩
  have hm : (Mem.object 0x1000 (List.replicate 60 0#8)).Mapped 0x1000 60 := (holds_object 0x1000 (List.replicate 60 0#8)).mapped
  obtain ⟨m', m'', K', t', e1, e2, e3, e4, e5⟩ := hf _ (fun _ => some t) 0 0x1000 t rfl hc hm
  obtain ⟨n', n'', L', s, g1, g2, g3, g4, g5, _⟩ := key _ (fun _ => some t) 0 0x1000 t rfl hc hm
  rw [e1] at g1
  obtain rfl : m' = n' := by injection g1
  rw [e2] at g2
  obtain rfl : m'' = n'' := by injection g2
  rw [e3] at g3
  obtain rfl : K' = L' := by injection g3 with _ g; injection g
  rw [e4] at g4
  obtain rfl : t' = { t with term := s } := by injection g4
  have := e5.lflag 1 (by omega)
  simp only [] at this
  rw [g5, ht] at this
  exact absurd this (by decide)

/-- C85, full statement on reading: the struct has the settings. -/
def C85_get_full : Prop :=
  ∀ (m : Mem) (K : TtyTab) (fd : Int) (io : Nat) (t : Tty), K fd = some t → t.term.cc.length = 19 → m.Mapped io 60 →
    ∃ m', tcgetattr m K fd io = (m', 0) ∧ Spec.TermAt m' io t.term

/-- The local flags in the struct are control characters 3 to 6, for every terminal: reading whether ECHO is set reads the character for kill. -/
theorem C85_get_refuted : ¬ C85_get_full ∧
    ∀ (m : Mem) (K : TtyTab) (fd : Int) (io : Nat) (t : Tty), K fd = some t → m.Mapped io 60 → ∀ k0 k1 k2 k3 k4 k5 k6 r,
      t.term.cc = k0 :: k1 :: k2 :: k3 :: k4 :: k5 :: k6 :: r → ∃ m', tcgetattr m K fd io = (m', 0) ∧ m'.HasW (io + 12) (k6 ++ k5 ++ k4 ++ k3) := by
  have key : ∀ (m : Mem) (K : TtyTab) (fd : Int) (io : Nat) (t : Tty), K fd = some t → m.Mapped io 60 → ∀ k0 k1 k2 k3 k4 k5 k6 r,
      t.term.cc = k0 :: k1 :: k2 :: k3 :: k4 :: k5 :: k6 :: r → ∃ m', tcgetattr m K fd io = (m', 0) ∧ m'.HasW (io + 12) (k6 ++ k5 ++ k4 ++ k3) := by
    intro m K fd io t hK hm k0 k1 k2 k3 k4 k5 k6 r hcc
    refine ⟨_, tcgetattr_eq hK (hm.mono (k := 18) (by omega)), ?_⟩
    have h := write_holds m io t.term.bytesA
    generalize m.write io t.term.bytesA = m1 at h
    unfold KTerm.bytesA at h
    rw [hcc] at h
    simp only [halfBytes, List.take, List.cons_append, List.nil_append, holds_cons, Nat.add_assoc, Nat.reduceAdd] at h
    obtain ⟨_, _, _, _, _, _, _, _, _, _, _, _, a12, a13, a14, a15, _⟩ := h
    unfold HasW
    rw [wordBytes_append]
    simp only [holds_cons, Nat.add_assoc, Nat.reduceAdd]
    exact ⟨a12, a13, a14, a15, holds_nil _ _⟩
  refine ⟨fun hf => ?_, key⟩
  have hm : (Mem.object 0x1000 (List.replicate 60 0#8)).Mapped 0x1000 60 := (holds_object 0x1000 (List.replicate 60 0#8)).mapped
  let t : Tty := ⟨⟨0, 0, 0, 2#32, 0, List.replicate 19 0#8⟩, 0, fun _ => 0, .ok 0, fun _ => 0⟩
  obtain ⟨m', e1, e2⟩ := hf _ (fun _ => some t) 0 0x1000 t rfl rfl hm
  obtain ⟨n', g1, g2⟩ := key _ (fun _ => some t) 0 0x1000 t rfl hm 0 0 0 0 0 0 0 (List.replicate 12 0#8) rfl
  rw [e1] at g1
  obtain rfl : m' = n' := by injection g1
  exact absurd (e2.lflag.unique g2) (by decide)

/-- C85, full statement on tcsetattr: it does not change the struct it is given. -/
def C85_const_full : Prop :=
  ∀ (m : Mem) (K : TtyTab) (fd opt : Int) (io : Nat), (tcsetattr m K fd opt io).1 = m

/-- A value of `opt` that is not one of the three is not refused: -1 reads the settings into the struct. -/
theorem C85_const_refuted : ¬ C85_const_full ∧
    ∀ (m : Mem) (K : TtyTab) (fd : Int) (io : Nat), tcsetattr m K fd (-1) io = ((tcgetattr m K fd io).1, K, (tcgetattr m K fd io).2) := by
  have key : ∀ (m : Mem) (K : TtyTab) (fd : Int) (io : Nat), tcsetattr m K fd (-1) io = ((tcgetattr m K fd io).1, K, (tcgetattr m K fd io).2) := by
    intro m K fd io
    cases hK : K fd with
    | none => simp [tcsetattr, tcgetattr, kIoctl, hK]
    | some t => cases hl : m.loadBytes io 18 <;> simp [tcsetattr, tcgetattr, kIoctl, hK, hl]
  refine ⟨fun hf => ?_, key⟩
  have hm : (Mem.object 0x1000 (List.replicate 60 0#8)).Mapped 0x1000 60 := (holds_object 0x1000 (List.replicate 60 0#8)).mapped
  let t : Tty := ⟨⟨1#32, 0, 0, 0, 0, List.replicate 19 0#8⟩, 0, fun _ => 0, .ok 0, fun _ => 0⟩
  have h := hf (Mem.object 0x1000 (List.replicate 60 0#8)) (fun _ => some t) 0 (-1) 0x1000
  rw [key, tcgetattr_eq (t := t) rfl (hm.mono (by omega))] at h
  have := congrFun h 0x1000
  exact absurd this (by decide)

/-- C85: the foreground process group that is set is the one that is read, others are refused as the kernel says, and the settings stay. -/
theorem C85_pgrp {K : TtyTab} {fd : Int} {t : Tty} (hK : K fd = some t) (g : BitVec 32) :
    (t.pgok g = 0 → ∃ K', tcsetpgrp K fd g = (K', 0) ∧ tcgetpgrp K' fd = g.toInt ∧ (K' fd).map (·.term) = some t.term ∧ ∀ f, f ≠ fd → K' f = K f) ∧
    (t.pgok g ≠ 0 → tcsetpgrp K fd g = (K, t.pgok g)) := by
  constructor
  · intro h
    refine ⟨_, by simp [tcsetpgrp, hK, h]; rfl, by simp [tcgetpgrp], by simp, fun f hf => by simp [hf]⟩
  · intro h
    simp [tcsetpgrp, hK, h]

/-- C85: on a descriptor that is no terminal tcgetpgrp answers -1, tcsetpgrp a negative number (ENOTTY), and nothing changes. -/
theorem C85_pgrp_none {K : TtyTab} {fd : Int} (hK : K fd = none) (g : BitVec 32) : tcgetpgrp K fd = -1 ∧ tcsetpgrp K fd g = (K, -25) := by
  simp [tcgetpgrp, tcsetpgrp, hK]

/-- A terminal in its usual mode, and a struct. -/
example : ∃ (m : Mem) (K : TtyTab) (t : Tty), K 0 = some t ∧ t.term.cc.length = 19 ∧ m.Mapped 0x1000 60 ∧ t.term.lflag = 0x8a3b#32 ∧
    ∃ t', Spec.RawMode t.term t' ∧ t'.lflag = 0x0a30#32 := by
  refine ⟨.object 0x1000 (List.replicate 60 0#8), fun _ => some ⟨⟨0x500#32, 5#32, 0xbf#32, 0x8a3b#32, 0, List.replicate 19 3#8⟩, 0, fun _ => 0, .ok 0, fun _ => 0⟩, _,
    rfl, rfl, (holds_object 0x1000 (List.replicate 60 0#8)).mapped, rfl, ⟨0#32, 4#32, 0xbf#32, 0x0a30#32, 0, (((List.replicate 19 3#8).set 6 1#8).set 5 0#8)⟩,
    ⟨?_, ?_, ?_, ?_, rfl, rfl⟩, rfl⟩
  · have : ∀ i : Fin 32, (0#32).getLsbD i = ((0x500#32).getLsbD i && !([0, 1, 3, 5, 6, 7, 8, 10].contains i.val)) := by decide
    exact fun i hi => this ⟨i, hi⟩
  · have : ∀ i : Fin 32, (4#32).getLsbD i = ((5#32).getLsbD i && !([0].contains i.val)) := by decide
    exact fun i hi => this ⟨i, hi⟩
  · have : ∀ i : Fin 32, (0x0a30#32).getLsbD i = ((0x8a3b#32).getLsbD i && !([0, 1, 3, 6, 15].contains i.val)) := by decide
    exact fun i hi => this ⟨i, hi⟩
  · have : ∀ i : Fin 32, (0xbf#32).getLsbD i = (((0xbf#32).getLsbD i && !(i.val == 8)) || (i.val == 4) || (i.val == 5)) := by decide
    exact fun i hi => this ⟨i, hi⟩

/-- C85: the terminal of the example and a descriptor without one. -/
example : let t : Tty := ⟨⟨0x500#32, 5#32, 0xbf#32, 0x8a3b#32, 0, List.replicate 19 3#8⟩, 0, fun _ => 0, .ok 0, fun _ => 0⟩
    let K : TtyTab := fun fd => if fd = 0 then some t else none
    let m : Mem := .object 0x1000 (List.replicate 60 0#8)
    isatty m K 0 0x1000 = 1 ∧ isatty m K 7 0x1000 = 0 ∧
    (∃ m' K', tcgetattr m K 0 0x1000 = (m', 0) ∧ tcsetattr m' K 0 1 0x1000 = (m', K', 0) ∧ ∀ f, K' f = K f) ∧
    ∃ m' m'' t', tcgetattrH m K 0 0x1000 = (m', 0) ∧ cfmakeraw m' 0x1000 = .ok m'' ∧ Spec.RawMode t.term t' := by
  intro t K m
  have hm : m.Mapped 0x1000 60 := (holds_object 0x1000 (List.replicate 60 0#8)).mapped
  obtain ⟨m', h1, h2, -⟩ := (C85_settings_partial (m := m) (K := K) (fd := 0) (io := 0x1000) (t := t) rfl rfl hm).1
  obtain ⟨m'', t', h3, -, h4, -⟩ := C85_cfmakeraw h2 (by decide)
  exact ⟨C85_isatty hm, C85_isatty hm, C85_restore rfl rfl hm (Or.inr (Or.inl rfl)), m', m'', t', h1, h3, h4⟩

end Minilib

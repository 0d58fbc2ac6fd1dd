import Verif.Spec.Output
import Verif.Lemmas.Sort
import Verif.Props.Str
import Verif.Props.Malloc
import Verif.Props.Printf
/-
Properties C39, C40 and C68: snprintfs, dprintf and fprintf, dprints, fputs and fprintfs.
-/

set_option autoImplicit false

namespace Minilib
open Mem Spec

/-! ### C68: fputs, dprints, fprintfs -/

theorem sysWrite_range {K : WKernel} (hK : ErrnoKernel K) (w : Writes) (fd : Int) (l : List Byte) :
    -4095 ≤ (sysWrite K w fd l).2 ∧ (sysWrite K w fd l).2 ≤ l.length := by
  have := hK w fd l
  simp only [sysWrite]
  omega

theorem mem_loadBytes {m : Mem} : ∀ {l : List Byte} {p : Nat}, m.Holds p l → m.loadBytes p l.length = .ok l
  | [], p, _ => rfl
  | b :: l, p, h => by
    obtain ⟨h1, h2⟩ := holds_cons.1 h
    simp only [List.length_cons, Mem.loadBytes]
    rw [load_some h1]
    simp only [Res.ok_bind]
    rw [mem_loadBytes h2]
    rfl

theorem kwrite_eq {K : WKernel} {m : Mem} {w : Writes} {fd : Int} {p : Nat} {l : List Byte} (h : m.Holds p l) :
    kwrite K m w fd p l.length = .ok (sysWrite K w fd l) := by
  unfold kwrite
  rw [mem_loadBytes h]
  rfl

/-- `fputs` offers exactly the string to the stream's descriptor and passes on the answer, whatever the kernel does. -/
theorem C68_fputs {K : WKernel} {m : Mem} {w : Writes} {fd : Int} {p : Nat} {s : List Byte} (h : m.IsStr p s)
    (hp : p ≠ 0) (hl : s.length < 2147483648) : fputs K m w p fd = .ok (sysWrite K w fd s) := by
  unfold fputs strlen
  rw [if_neg hp, strlenLoop_eq (by simpa using h) (by omega)]
  simp only [Res.ok_bind, Nat.zero_add]
  exact kwrite_eq h.1

theorem offer_accepting {K : WKernel} (hK : Accepting K) (fd : Int) : ∀ (ss : List (List Byte)) (w : Writes),
    offer K fd w ss = (w ++ ss.map (fun s => (fd, s)), (ss.flatten.length : Int))
  | [], w => by simp [offer]
  | s :: ss, w => by
    have h1 : sysWrite K w fd s = (w ++ [(fd, s)], (s.length : Int)) := by
      simp [sysWrite, hK w fd s]
    simp only [offer, h1, offer_accepting hK fd ss, List.map_cons, List.flatten_cons, List.length_append]
    simp

theorem delivered_append (fd : Int) (w w' : Writes) : delivered fd (w ++ w') = delivered fd w ++ delivered fd w' := by
  simp [delivered]

theorem delivered_map (fd : Int) (ss : List (List Byte)) : delivered fd (ss.map (fun s => (fd, s))) = ss.flatten := by
  induction ss with
  | nil => rfl
  | cons s ss ih =>
    simp only [delivered, List.map_cons, List.flatten_cons] at *
    simp [ih]

/-- Whatever the kernel does, what is delivered to `fd` is a selection of the bytes offered, in order. -/
theorem offer_sublist (K : WKernel) (fd : Int) : ∀ (ss : List (List Byte)) (w : Writes),
    ∃ d, (offer K fd w ss).1 = w ++ d ∧ (∀ x ∈ d, x.1 = fd) ∧ (d.flatMap (fun x => x.2)).Sublist ss.flatten
  | [], w => ⟨[], by simp [offer], by simp, by simp⟩
  | s :: ss, w => by
    obtain ⟨d, h1, h2, h3⟩ := offer_sublist K fd ss (sysWrite K w fd s).1
    refine ⟨(fd, s.take (min (K w fd s) s.length).toNat) :: d, ?_, ?_, ?_⟩
    · simp only [offer, h1]
      simp [sysWrite]
    · intro x hx
      rcases List.mem_cons.1 hx with rfl | hx
      · rfl
      · exact h2 x hx
    · simp only [List.flatMap_cons, List.flatten_cons]
      exact List.Sublist.append (List.take_sublist _ _) h3

theorem dprintsLoop_eq {K : WKernel} {m : Mem} {fd : Int} (hK : ErrnoKernel K) (rest : List Nat) (ps : List Nat) :
    ∀ (ss : List (List Byte)) (msg : Nat) (s : List Byte) (w : Writes) (ret : Int),
    m.IsStr msg s → AllStr m ps ss → (∀ p ∈ ps, p ≠ 0) →
    -2147483648 + 4095 * ((ps.length : Int) + 1) ≤ ret → ret + s.length + ss.flatten.length ≤ 2147483647 →
    s.length < 2147483648 → (∀ s ∈ ss, s.length < 2147483648) →
    dprintsLoop K m fd msg (ps ++ 0 :: rest) w ret
      = .ok ((offer K fd w (s :: ss)).1, ret + (offer K fd w (s :: ss)).2) := by
  induction ps with
  | nil =>
    intro ss msg s w ret hs ha h0 hr hr2 hl hls
    cases ss with
    | cons => exact ha.elim
    | nil =>
      have := sysWrite_range hK w fd s
      simp only [List.nil_append, dprintsLoop]
      rw [strlenLoop_eq (by simpa using hs) (by omega)]
      simp only [Res.ok_bind, Nat.zero_add]
      rw [kwrite_eq hs.1]
      simp only [Res.ok_bind]
      simp only [List.length_nil, List.flatten_nil] at hr hr2
      rw [ckInt_ok (by omega) (by omega)]
      simp [offer]
  | cons p ps ih =>
    intro ss msg s w ret hs ha h0 hr hr2 hl hls
    cases ss with
    | nil => exact ha.elim
    | cons t ss =>
      have := sysWrite_range hK w fd s
      simp only [List.cons_append, dprintsLoop]
      rw [strlenLoop_eq (by simpa using hs) (by omega)]
      simp only [Res.ok_bind, Nat.zero_add]
      rw [kwrite_eq hs.1]
      simp only [Res.ok_bind]
      simp only [List.length_cons, List.flatten_cons, List.length_append] at hr hr2
      rw [ckInt_ok (by omega) (by omega)]
      simp only [Res.ok_bind]
      rw [if_neg (h0 p (by simp))]
      rw [ih ss p t _ _ ha.1 ha.2 (fun q hq => h0 q (by simp [hq])) (by omega) (by omega)
        (hls t (by simp)) (fun q hq => hls q (by simp [hq]))]
      simp only [offer]
      congr 2
      omega

/-- C68, `dprints` against any kernel: the strings are offered to the descriptor one after the other, whole and in
order, and the sum of the answers is returned. -/
theorem C68_dprints {K : WKernel} {m : Mem} {fd : Int} {msg : Nat} {s : List Byte} {ps : List Nat}
    {ss : List (List Byte)} (hK : ErrnoKernel K) (hs : m.IsStr msg s) (ha : AllStr m ps ss) (h0 : ∀ p ∈ ps, p ≠ 0)
    (hn : ps.length < 524000) (hl : (s :: ss).flatten.length ≤ 2147483647) (w : Writes) (rest : List Nat) :
    dprints K m w fd msg (ps ++ 0 :: rest) = .ok (offer K fd w (s :: ss)) := by
  have hl2 : ∀ t ∈ ss, t.length < 2147483648 := by
    intro t ht
    have := (List.sublist_flatten_of_mem ht).length_le
    simp only [List.flatten_cons, List.length_append] at hl
    omega
  simp only [List.flatten_cons, List.length_append] at hl
  unfold dprints
  rw [dprintsLoop_eq hK rest ps ss msg s w 0 hs ha h0 (by omega) (by omega) (by omega) hl2]
  simp

/-- C68: with a descriptor that takes everything, `dprints` delivers the concatenation of its strings, and returns its
length. -/
theorem C68_dprints_all {K : WKernel} {m : Mem} {fd : Int} {msg : Nat} {s : List Byte} {ps : List Nat}
    {ss : List (List Byte)} (hK : Accepting K) (hs : m.IsStr msg s) (ha : AllStr m ps ss) (h0 : ∀ p ∈ ps, p ≠ 0)
    (hn : ps.length < 524000) (hl : (s :: ss).flatten.length ≤ 2147483647) (w : Writes) (rest : List Nat) :
    ∃ w', dprints K m w fd msg (ps ++ 0 :: rest) = .ok (w', ((s :: ss).flatten.length : Int)) ∧
      delivered fd w' = delivered fd w ++ (s :: ss).flatten := by
  rw [C68_dprints (fun w fd l => by rw [hK]; omega) hs ha h0 hn hl, offer_accepting hK]
  exact ⟨_, rfl, by rw [delivered_append, delivered_map]⟩

/-- The pieces in which `fprintfs` writes its text; `lit` is the literal text waiting. -/
def fpSegs : List Byte → List SfItem → List (List Byte)
  | lit, [] => [lit]
  | lit, .lit c :: its => fpSegs (lit ++ [c]) its
  | lit, .other c :: its => fpSegs (lit ++ [37#8, c]) its
  | lit, .str _ s :: its => lit :: s :: fpSegs [] its
  | lit, .chr v :: its => lit :: [v.setWidth 8] :: fpSegs [] its

theorem fpSegs_flatten (its : List SfItem) : ∀ lit,
    (fpSegs lit its).flatten = lit ++ sfOut (fun c => [37#8, c]) its := by
  induction its with
  | nil => intro lit; simp [fpSegs, sfOut]
  | cons it its ih =>
    intro lit
    cases it <;> simp [fpSegs, ih, sfOut, SfItem.out]

theorem fpSegs_length (its : List SfItem) : ∀ lit, (fpSegs lit its).length ≤ 2 * its.length + 1 := by
  induction its with
  | nil => intro lit; simp [fpSegs]
  | cons it its ih =>
    intro lit
    cases it with
    | lit c => have := ih (lit ++ [c]); simp only [fpSegs, List.length_cons]; omega
    | other c => have := ih (lit ++ [37#8, c]); simp only [fpSegs, List.length_cons]; omega
    | str p s => have := ih []; simp only [fpSegs, List.length_cons]; omega
    | chr v => have := ih []; simp only [fpSegs, List.length_cons]; omega

theorem fprintfsLoop_eq {K : WKernel} {m : Mem} {fd : Int} {fmt : Nat} (hK : ErrnoKernel K) (its : List SfItem) :
    ∀ (lit : List Byte) (p : Nat) (w : Writes) (ret : Int), m.Holds (fmt + p) (lit ++ sfText its ++ [0#8]) →
    (∀ it ∈ its, it.Ok m) → -2147483648 + 4095 * ((fpSegs lit its).length : Int) ≤ ret →
    ret + ((fpSegs lit its).flatten.length : Int) ≤ 2147483647 →
    fprintfsLoop K m fd fmt (p + lit.length) p (sfArgs its) w ret
      = .ok ((offer K fd w (fpSegs lit its)).1, ret + (offer K fd w (fpSegs lit its)).2) := by
  induction its with
  | nil =>
    intro lit p w ret hf hok h1 h2
    simp only [sfText, List.flatMap_nil, List.append_nil] at hf
    obtain ⟨f1, f2⟩ := holds_append.1 hf
    have f3 := (holds_cons.1 f2).1
    rw [fprintfsLoop, ← Nat.add_assoc, load_some f3]
    simp only [Res.ok_bind]
    rw [if_neg (by simp), Nat.add_sub_cancel_left, kwrite_eq f1]
    have := sysWrite_range hK w fd lit
    simp only [fpSegs, List.length_cons, List.length_nil, List.flatten_cons, List.flatten_nil, List.append_nil] at h1 h2
    simp only [Res.ok_bind]
    rw [ckInt_ok (by omega) (by omega)]
    simp [fpSegs, offer]
  | cons it its ih =>
    intro lit p w ret hf hok h1 h2
    have hit := hok it (by simp)
    have hok' : ∀ x ∈ its, x.Ok m := fun x hx => hok x (by simp [hx])
    cases it with
    | lit c =>
      simp only [SfItem.Ok] at hit
      simp only [sfText, List.flatMap_cons, SfItem.text] at hf
      have f3 : m (fmt + (p + lit.length)) = some c := by
        have := (holds_append.1 ((List.append_assoc _ _ _) ▸ hf)).2
        have := (holds_cons.1 this).1
        rwa [← Nat.add_assoc]
      rw [fprintfsLoop, load_some f3]
      simp only [Res.ok_bind]
      rw [if_pos hit.1, if_neg hit.2]
      have := ih (lit ++ [c]) p w ret (by simpa [sfText] using hf) hok' h1 h2
      simp only [List.length_append, List.length_cons, List.length_nil, Nat.zero_add] at this
      simpa [sfArgs, SfItem.args, Nat.add_assoc, fpSegs] using this
    | other c =>
      simp only [SfItem.Ok] at hit
      simp only [sfText, List.flatMap_cons, SfItem.text] at hf
      have h3 := (holds_append.1 ((List.append_assoc _ _ _) ▸ hf)).2
      obtain ⟨f3, f4⟩ := holds_cons.1 h3
      have f5 := (holds_cons.1 f4).1
      rw [fprintfsLoop, ← Nat.add_assoc, load_some f3]
      simp only [Res.ok_bind]
      rw [if_pos (by simp), if_pos trivial, ← Nat.add_assoc, ← Nat.add_assoc, load_some f5]
      simp only [Res.ok_bind]
      rw [if_neg hit.2.1, if_neg hit.2.2]
      have := ih (lit ++ [37#8, c]) p w ret (by simpa [sfText] using hf) hok' h1 h2
      simp only [List.length_append, List.length_cons, List.length_nil, Nat.zero_add] at this
      simpa [sfArgs, SfItem.args, Nat.add_assoc, fpSegs] using this
    | str q s =>
      simp only [SfItem.Ok] at hit
      simp only [sfText, List.flatMap_cons, SfItem.text] at hf
      have h3 := (holds_append.1 ((List.append_assoc _ _ _) ▸ hf))
      obtain ⟨f3, f4⟩ := holds_cons.1 h3.2
      obtain ⟨f5, f6⟩ := holds_cons.1 f4
      rw [fprintfsLoop, ← Nat.add_assoc, load_some f3]
      simp only [Res.ok_bind]
      rw [if_pos (by simp), if_pos trivial, ← Nat.add_assoc, ← Nat.add_assoc, load_some f5]
      simp only [Res.ok_bind]
      rw [if_pos trivial, Nat.add_sub_cancel_left, kwrite_eq h3.1]
      have r1 := sysWrite_range hK w fd lit
      have r2 := sysWrite_range hK (sysWrite K w fd lit).1 fd s
      simp only [fpSegs, List.length_cons, List.flatten_cons, List.length_append] at h1 h2
      simp only [Res.ok_bind]
      rw [ckInt_ok (by omega) (by omega)]
      simp only [Res.ok_bind, sfArgs, List.flatMap_cons, SfItem.args, List.singleton_append, vaStr]
      rw [C68_fputs hit.1 hit.2.1 hit.2.2]
      simp only [Res.ok_bind]
      rw [ckInt_ok (by omega) (by omega)]
      simp only [Res.ok_bind]
      have := ih [] (p + lit.length + 2) (sysWrite K (sysWrite K w fd lit).1 fd s).1
        (ret + (sysWrite K w fd lit).2 + (sysWrite K (sysWrite K w fd lit).1 fd s).2)
        (by simpa [sfText, Nat.add_assoc] using f6) hok' (by omega) (by omega)
      simp only [List.length_nil, Nat.add_zero, sfArgs] at this
      rw [this]
      simp only [fpSegs, offer]
      congr 2
      omega
    | chr v =>
      simp only [sfText, List.flatMap_cons, SfItem.text] at hf
      have h3 := (holds_append.1 ((List.append_assoc _ _ _) ▸ hf))
      obtain ⟨f3, f4⟩ := holds_cons.1 h3.2
      obtain ⟨f5, f6⟩ := holds_cons.1 f4
      rw [fprintfsLoop, ← Nat.add_assoc, load_some f3]
      simp only [Res.ok_bind]
      rw [if_pos (by simp), if_pos trivial, ← Nat.add_assoc, ← Nat.add_assoc, load_some f5]
      simp only [Res.ok_bind]
      rw [if_neg (by simp), if_pos trivial, Nat.add_sub_cancel_left, kwrite_eq h3.1]
      have r1 := sysWrite_range hK w fd lit
      have r2 := sysWrite_range hK (sysWrite K w fd lit).1 fd [v.setWidth 8]
      simp only [fpSegs, List.length_cons, List.flatten_cons, List.length_append, List.length_nil] at h1 h2 r2
      simp only [Res.ok_bind]
      rw [ckInt_ok (by omega) (by omega)]
      simp only [Res.ok_bind, sfArgs, List.flatMap_cons, SfItem.args, List.singleton_append, vaInt]
      rw [ckInt_ok (by omega) (by omega)]
      simp only [Res.ok_bind]
      have := ih [] (p + lit.length + 2) (sysWrite K (sysWrite K w fd lit).1 fd [v.setWidth 8]).1
        (ret + (sysWrite K w fd lit).2 + (sysWrite K (sysWrite K w fd lit).1 fd [v.setWidth 8]).2)
        (by simpa [sfText, Nat.add_assoc] using f6) hok' (by omega) (by omega)
      simp only [List.length_nil, Nat.add_zero, sfArgs] at this
      rw [this]
      simp only [fpSegs, offer]
      congr 2
      omega

/-- C68, `fprintfs` against any kernel: pieces that make up the text of the format are offered to the descriptor of
the stream in order, and the sum of the answers is returned.  `%` with an unknown character stands for itself. -/
theorem C68_fprintfs {K : WKernel} {m : Mem} {fd : Int} {fmt : Nat} {its : List SfItem} (hK : ErrnoKernel K)
    (hf : m.Holds fmt (sfText its ++ [0#8])) (hok : ∀ it ∈ its, it.Ok m) (hn : its.length < 262000)
    (hl : (sfOut (fun c => [37#8, c]) its).length ≤ 2147483647) (w : Writes) :
    ∃ segs : List (List Byte), segs.flatten = sfOut (fun c => [37#8, c]) its ∧
      fprintfs K m w fd fmt (sfArgs its) = .ok (offer K fd w segs) := by
  refine ⟨fpSegs [] its, by simp [fpSegs_flatten], ?_⟩
  unfold fprintfs
  have h1 := fpSegs_length its []
  have h2 := fpSegs_flatten its []
  have := fprintfsLoop_eq (fd := fd) (fmt := fmt) hK its [] 0 w 0 (by simpa using hf) hok (by omega) (by rw [h2]; simpa using hl)
  simpa using this

/-- C68: with a descriptor that takes everything, `fprintfs` delivers the text of its format, and returns its length. -/
theorem C68_fprintfs_all {K : WKernel} {m : Mem} {fd : Int} {fmt : Nat} {its : List SfItem} (hK : Accepting K)
    (hf : m.Holds fmt (sfText its ++ [0#8])) (hok : ∀ it ∈ its, it.Ok m) (hn : its.length < 262000)
    (hl : (sfOut (fun c => [37#8, c]) its).length ≤ 2147483647) (w : Writes) :
    ∃ w', fprintfs K m w fd fmt (sfArgs its) = .ok (w', ((sfOut (fun c => [37#8, c]) its).length : Int)) ∧
      delivered fd w' = delivered fd w ++ sfOut (fun c => [37#8, c]) its := by
  obtain ⟨segs, h1, h2⟩ := C68_fprintfs (fd := fd) (K := K) (fun w fd l => by rw [hK]; omega) hf hok hn hl w
  rw [h2, offer_accepting hK, h1]
  exact ⟨_, rfl, by rw [delivered_append, delivered_map, h1]⟩

/-- C68: whatever the kernel does, `fprintfs` and `dprints` write to no other descriptor, and what they deliver is a
selection of the bytes of the text in order. -/
theorem C68_selection {K : WKernel} {m : Mem} {fd : Int} {fmt : Nat} {its : List SfItem} (hK : ErrnoKernel K)
    (hf : m.Holds fmt (sfText its ++ [0#8])) (hok : ∀ it ∈ its, it.Ok m) (hn : its.length < 262000)
    (hl : (sfOut (fun c => [37#8, c]) its).length ≤ 2147483647) (w : Writes) :
    ∃ d ret, fprintfs K m w fd fmt (sfArgs its) = .ok (w ++ d, ret) ∧ (∀ x ∈ d, x.1 = fd) ∧
      (d.flatMap (fun x => x.2)).Sublist (sfOut (fun c => [37#8, c]) its) := by
  obtain ⟨segs, h1, h2⟩ := C68_fprintfs (fd := fd) hK hf hok hn hl w
  obtain ⟨d, a1, a2, a3⟩ := offer_sublist K fd segs w
  refine ⟨d, (offer K fd w segs).2, ?_, a2, h1 ▸ a3⟩
  rw [h2, ← a1]

/-- C68 for kernels that take a part of what they are offered (as pipes, sockets and terminals do): what is delivered
is the beginning of the text. -/
def C68_short_full : Prop :=
  ∀ (K : WKernel) (m : Mem) (fd : Int) (msg p : Nat) (s t : List Byte), (∀ w fd l, 0 ≤ K w fd l) →
    m.IsStr msg s → m.IsStr p t → p ≠ 0 → s.length + t.length ≤ 2147483647 →
    ∃ w' ret, dprints K m [] fd msg [p, 0] = .ok (w', ret) ∧ delivered fd w' <+: s ++ t

/-- "ab" and "cd" at 16 and 32. -/
def dpMem : Mem := Mem.objects [(16, [97#8, 98#8, 0#8]), (32, [99#8, 100#8, 0#8])]

/-- C68 fails with short writes: the rest of a piece is dropped, the next one follows ("ac"). -/
theorem C68_short_refuted : ¬ C68_short_full := by
  intro h
  obtain ⟨w', ret, h1, h2⟩ := h (fun _ _ _ => 1) dpMem 1 16 32 [97#8, 98#8] [99#8, 100#8] (by simp) (by decide +kernel)
    (by decide +kernel) (by decide) (by decide)
  have h3 := C68_dprints (K := fun _ _ _ => 1) (m := dpMem) (fd := 1) (msg := 16) (s := [97#8, 98#8]) (ps := [32])
    (ss := [[99#8, 100#8]]) (fun _ _ _ => by show (-4095 : Int) ≤ 1; omega) (by decide +kernel) ⟨by decide +kernel, trivial⟩ (by decide)
    (by decide) (by decide) [] []
  simp only [List.cons_append, List.nil_append] at h3
  rw [h1] at h3
  have h4 : w' = [(1, [97#8]), (1, [99#8])] := congrArg Prod.fst (Res.ok.inj h3)
  rw [h4] at h2
  revert h2
  decide

/-- The hypotheses of C68 are met: "ab" and "cd" on descriptor 1. -/
example (K : WKernel) (hK : Accepting K) : ∃ w', dprints K dpMem [] 1 16 [32, 0] = .ok (w', 4) ∧
    delivered 1 w' = [97#8, 98#8, 99#8, 100#8] := by
  simpa [delivered] using C68_dprints_all (m := dpMem) (fd := 1) (msg := 16) (s := [97#8, 98#8]) (ps := [32])
    (ss := [[99#8, 100#8]]) hK (by decide +kernel) ⟨by decide +kernel, trivial⟩ (by decide) (by decide) (by decide) [] []

/-- The format "x%s%c%d" at 48. -/
def fpMem : Mem := Mem.objects [(16, [97#8, 98#8, 0#8]), (48, [120#8, 37#8, 115#8, 37#8, 99#8, 37#8, 100#8, 0#8])]

/-- "x%s%c%d" with "ab" and 'y' prints "xaby%d". -/
example (K : WKernel) (hK : Accepting K) : ∃ w', fprintfs K fpMem [] 1 48 [.str 16, .int 121#32] = .ok (w', 6) ∧
    delivered 1 w' = [120#8, 97#8, 98#8, 121#8, 37#8, 100#8] := by
  simpa [sfArgs, SfItem.args, sfOut, SfItem.out, delivered] using
    C68_fprintfs_all (K := K) (m := fpMem) (fd := 1) (fmt := 48)
      (its := [.lit 120#8, .str 16 [97#8, 98#8], .chr 121#32, .other 100#8]) hK (by decide +kernel)
      (by
        intro it hit
        simp only [List.mem_cons, List.not_mem_nil, or_false] at hit
        rcases hit with rfl | rfl | rfl | rfl
        · exact ⟨by decide, by decide⟩
        · exact ⟨by decide +kernel, by decide, by decide⟩
        · trivial
        · exact ⟨by decide, by decide, by decide⟩) (by decide) (by decide) []

/-! ### C39: snprintfs -/

theorem write_overlay (m : Mem) (p : Nat) (o tail l : List Byte) :
    (m.write p (o ++ tail)).write (p + o.length) l = m.write p (o ++ (l ++ tail.drop l.length)) := by
  funext a
  by_cases h1 : p ≤ a
  · by_cases h2 : p + o.length ≤ a
    · obtain ⟨i, rfl⟩ := Nat.exists_eq_add_of_le h2
      have e1 : p + o.length + i - p = o.length + i := by omega
      simp only [write, if_pos h1, if_pos h2, e1, Nat.add_sub_cancel_left]
      rw [List.getElem?_append_right (by omega), List.getElem?_append_right (by omega), Nat.add_sub_cancel_left]
      by_cases h3 : i < l.length
      · rw [List.getElem?_append_left h3]
        simp [h3]
      · rw [List.getElem?_append_right (by omega), List.getElem?_drop, List.getElem?_eq_none (by omega : l.length ≤ i)]
        rw [show l.length + (i - l.length) = i by omega]
    · simp only [write, if_pos h1, if_neg h2]
      rw [List.getElem?_append_left (by omega), List.getElem?_append_left (by omega)]
  · simp only [write, if_neg h1, if_neg (show ¬ p + o.length ≤ a by omega)]

theorem snprintfsLoop_eq {m : Mem} {buf size fmt : Nat} (hm : m.Mapped buf size) (its : List SfItem) :
    ∀ (o : List Byte) (k a : Nat), o.length + k ≤ size →
    m.Holds (fmt + a) (sfText its ++ [0#8]) →
    (fmt + a + (sfText its).length < buf ∨ buf + size ≤ fmt + a) →
    (∀ it ∈ its, it.Ok m ∧ it.Apart buf size) →
    ∃ k', ((o ++ sfOut (fun _ => []) its).take size).length + k' ≤ size ∧
      snprintfsLoop (m.write buf (o ++ List.replicate k 0#8)) fmt a (buf + o.length) (buf + size) (sfArgs its)
        = .ok (m.write buf ((o ++ sfOut (fun _ => []) its).take size ++ List.replicate k' 0#8),
            buf + ((o ++ sfOut (fun _ => []) its).take size).length) := by
  induction its with
  | nil =>
    intro o k a hk hf hd hok
    simp only [sfText, List.flatMap_nil, List.nil_append, List.length_nil] at hf hd
    refine ⟨k, by simp [sfOut]; omega, ?_⟩
    rw [snprintfsLoop]
    have hf' := hf.write (q := buf) (k := o ++ List.replicate k 0#8) (by simp; omega)
    rw [load_some (holds_cons.1 hf').1]
    simp only [Res.ok_bind]
    rw [if_neg (by simp)]
    simp only [sfOut, List.flatMap_nil, List.append_nil, Res.pure_eq]
    rw [List.take_of_length_le (by omega)]
  | cons it its ih =>
    intro o k a hk hf hd hok
    have hit := hok it (by simp)
    have hok' : ∀ x ∈ its, x.Ok m ∧ x.Apart buf size := fun x hx => hok x (by simp [hx])
    have hf' := hf.write (q := buf) (k := o ++ List.replicate k 0#8)
      (by simp only [List.length_append, List.length_replicate, List.length_cons, List.length_nil]; omega)
    generalize hM : m.write buf (o ++ List.replicate k 0#8) = M at hf'
    have hMm : M.Mapped buf size := hM ▸ hm.write _ _
    have hstore : ∀ b : Byte, o.length < size → M.store (buf + o.length) b
        = .ok (m.write buf ((o ++ [b]) ++ List.replicate (k - 1) 0#8)) := by
      intro b hlt
      obtain ⟨x, hx⟩ := hMm o.length hlt
      rw [store_some hx, ← hM, ← write_singleton, write_overlay]
      simp
    by_cases hfull : o.length < size
    · cases it with
      | lit c =>
        simp only [SfItem.Ok] at hit
        simp only [sfText, List.flatMap_cons, SfItem.text, List.singleton_append, List.cons_append, List.length_cons] at hf hf' hd
        rw [snprintfsLoop, load_some (holds_cons.1 hf').1]
        simp only [Res.ok_bind]
        rw [if_pos ⟨hit.1.1, by omega⟩, if_neg hit.1.2, hstore c hfull]
        simp only [Res.ok_bind]
        have := ih (o ++ [c]) (k - 1) (a + 1) (by simp; omega) (holds_cons.1 hf).2 (by simp only [sfText, List.nil_append] at hd ⊢; omega) hok'
        simpa [sfOut, SfItem.out, sfArgs, SfItem.args, Nat.add_assoc] using this
      | other c =>
        simp only [SfItem.Ok] at hit
        simp only [sfText, List.flatMap_cons, SfItem.text, List.cons_append, List.nil_append, List.length_cons] at hf hf' hd
        obtain ⟨f1, f2⟩ := holds_cons.1 hf'
        rw [snprintfsLoop, load_some f1]
        simp only [Res.ok_bind]
        rw [if_pos ⟨by simp, by omega⟩, if_pos trivial, ← Nat.add_assoc, load_some (holds_cons.1 f2).1]
        simp only [Res.ok_bind]
        rw [if_neg hit.1.2.1, if_neg hit.1.2.2, ← hM]
        have := ih o k (a + 2) hk (holds_cons.1 (holds_cons.1 hf).2).2 (by simp only [sfText]; omega) hok'
        simpa [sfOut, SfItem.out, sfArgs, SfItem.args, Nat.add_assoc] using this
      | chr v =>
        simp only [sfText, List.flatMap_cons, SfItem.text, List.cons_append, List.nil_append, List.length_cons] at hf hf' hd
        obtain ⟨f1, f2⟩ := holds_cons.1 hf'
        rw [snprintfsLoop, load_some f1]
        simp only [Res.ok_bind]
        rw [if_pos ⟨by simp, by omega⟩, if_pos trivial, ← Nat.add_assoc, load_some (holds_cons.1 f2).1]
        simp only [Res.ok_bind]
        rw [if_neg (by simp), if_pos trivial]
        simp only [sfArgs, List.flatMap_cons, SfItem.args, List.singleton_append, vaInt, Res.ok_bind]
        rw [hstore _ hfull]
        simp only [Res.ok_bind]
        have := ih (o ++ [v.setWidth 8]) (k - 1) (a + 2) (by simp; omega) (holds_cons.1 (holds_cons.1 hf).2).2
          (by simp only [sfText]; omega) hok'
        simpa [sfOut, SfItem.out, sfArgs, SfItem.args, Nat.add_assoc] using this
      | str q s =>
        simp only [SfItem.Ok, SfItem.Apart] at hit
        simp only [sfText, List.flatMap_cons, SfItem.text, List.cons_append, List.nil_append, List.length_cons] at hf hf' hd
        obtain ⟨f1, f2⟩ := holds_cons.1 hf'
        have hsM : M.IsStr q s := hM ▸ hit.1.1.write (q := buf) (k := o ++ List.replicate k 0#8)
          (by simp only [List.length_append, List.length_replicate]; omega)
        rw [snprintfsLoop, load_some f1]
        simp only [Res.ok_bind]
        rw [if_pos ⟨by simp, by omega⟩, if_pos trivial, ← Nat.add_assoc, load_some (holds_cons.1 f2).1]
        simp only [Res.ok_bind]
        rw [if_pos trivial]
        simp only [sfArgs, List.flatMap_cons, SfItem.args, List.singleton_append, vaStr, Res.ok_bind]
        obtain ⟨n, hn⟩ : ∃ n, n = size - o.length := ⟨_, rfl⟩
        rw [show buf + size - (buf + o.length) = n by omega]
        have hlen : (s.take n).length = min n s.length := List.length_take
        rw [C04_stpncpy_partial (t := s.take n) (IsStr_strN hsM n)
          (by
            intro h
            exact hsM.mapped n (by omega))
          (fun i hi => by
            have := hMm (o.length + i) (by omega)
            rwa [← Nat.add_assoc] at this)
          (by
            intro x hx
            omega)]
        simp only [Res.ok_bind]
        rw [← hM, write_overlay]
        have e1 : (List.replicate k 0#8).drop ((s.take n ++ List.replicate (n - (s.take n).length) 0#8).length) = [] := by
          apply List.drop_eq_nil_of_le
          simp only [List.length_append, List.length_replicate]
          omega
        rw [e1, List.append_nil, ← List.append_assoc]
        have e2 : ((o ++ s.take n) ++ sfOut (fun _ => []) its).take size
            = (o ++ sfOut (fun _ => []) (.str q s :: its)).take size := by
          simp only [sfOut, List.flatMap_cons, SfItem.out]
          rcases Nat.le_total s.length n with h | h
          · rw [List.take_of_length_le h, List.append_assoc]
          · simp only [List.take_append, List.take_take, List.length_append, hlen]
            rw [show min (size - o.length) n = n by omega, show size - (o.length + min n s.length) = 0 by omega,
              show size - o.length - s.length = 0 by omega, ← hn]
            simp
        have := ih (o ++ s.take n) (n - (s.take n).length) (a + 2) (by simp only [List.length_append]; omega)
          (holds_cons.1 (holds_cons.1 hf).2).2 (by simp only [sfText]; omega) hok'
        rw [e2] at this
        simpa [sfArgs, Nat.add_assoc] using this
    · have hk0 : k = 0 := by omega
      subst hk0
      refine ⟨0, by simp, ?_⟩
      obtain ⟨c, l, hcl⟩ : ∃ c l, sfText (it :: its) ++ [0#8] = c :: l := by
        cases h : sfText (it :: its) ++ [0#8] with
        | nil => simp at h
        | cons c l => exact ⟨c, l, rfl⟩
      rw [hcl] at hf'
      rw [snprintfsLoop, load_some (holds_cons.1 hf').1]
      simp only [Res.ok_bind]
      rw [if_neg (by omega), ← hM]
      rw [List.take_append_of_le_length (by omega), List.take_of_length_le (by omega)]
      rfl

/-- What a call of `snprintfs` needs: format and strings in memory outside of the buffer, items well formed. -/
structure _root_.Spec.SfCall (m : Mem) (buf size fmt : Nat) (its : List SfItem) : Prop where
  format : m.Holds fmt (sfText its ++ [0#8])
  disjoint : fmt + (sfText its).length < buf ∨ buf + size ≤ fmt
  items : ∀ it ∈ its, it.Ok m ∧ it.Apart buf size

/-- C39 for every size and format: the text, cut to `size-1` bytes, and a NUL in `buf[0..size)`. -/
def C39_full : Prop :=
  ∀ (m : Mem) (buf size fmt : Nat) (its : List SfItem), 0 < size → m.Mapped buf size → SfCall m buf size fmt its →
    ∃ (l : List Byte) (ret : Int), snprintfs m buf size fmt (sfArgs its) = .ok (m.write buf l, ret) ∧
      l.length ≤ size ∧ (sfOut (fun _ => []) its).take (size - 1) ++ [0#8] <+: l

/-- C39 (partial: the text has to be shorter than the buffer): text and NUL are written inside the buffer, perhaps
followed by more NULs, and the length of the text is returned.  An unknown conversion prints nothing. -/
theorem C39_snprintfs_partial {m : Mem} {buf size fmt : Nat} {its : List SfItem} (hm : m.Mapped buf size)
    (hc : SfCall m buf size fmt its) (hl : (sfOut (fun _ => []) its).length < size) :
    ∃ k, (sfOut (fun _ => []) its).length + k < size ∧
      snprintfs m buf size fmt (sfArgs its) = .ok (m.write buf (sfOut (fun _ => []) its ++ List.replicate (k + 1) 0#8),
        ((sfOut (fun _ => []) its).length : Int)) := by
  obtain ⟨k, h1, h2⟩ := snprintfsLoop_eq hm its [] 0 0 (by simp) (by simpa using hc.format)
    (by simpa using hc.disjoint) hc.items
  simp only [List.nil_append, List.replicate_zero, write_nil, List.length_nil, Nat.add_zero] at h1 h2
  rw [List.take_of_length_le (by omega)] at h1 h2
  refine ⟨k - 1, by omega, ?_⟩
  unfold snprintfs
  rw [h2]
  simp only [Res.ok_bind]
  obtain ⟨x, hx⟩ := (hm.write buf (sfOut (fun _ => []) its ++ List.replicate k 0#8)) _ hl
  rw [store_some hx]
  simp only [Res.ok_bind, Res.pure_eq]
  rw [← write_singleton, write_overlay]
  congr 2
  · cases k <;> simp [List.replicate_succ]
  · omega

/-- C39 (partial: what happens when the text does not fit): `size` bytes of the text and a NUL behind the buffer. -/
theorem C39_snprintfs_cut_partial {m : Mem} {buf size fmt : Nat} {its : List SfItem} (hm : m.Mapped buf (size + 1))
    (hc : SfCall m buf size fmt its) (hl : size ≤ (sfOut (fun _ => []) its).length) :
    snprintfs m buf size fmt (sfArgs its) = .ok (m.write buf ((sfOut (fun _ => []) its).take size ++ [0#8]), (size : Int)) := by
  obtain ⟨k, h1, h2⟩ := snprintfsLoop_eq (hm.mono (by omega : size ≤ size + 1)) its [] 0 0 (by simp)
    (by simpa using hc.format) (by simpa using hc.disjoint) hc.items
  simp only [List.nil_append, List.replicate_zero, write_nil, List.length_nil, Nat.add_zero] at h1 h2
  have hlen : ((sfOut (fun _ => []) its).take size).length = size := by simp; omega
  rw [hlen] at h1 h2
  have hk : k = 0 := by omega
  subst hk
  unfold snprintfs
  rw [h2]
  simp only [Res.ok_bind]
  obtain ⟨x, hx⟩ := (hm.write buf ((sfOut (fun _ => []) its).take size ++ List.replicate 0 0#8)) size (by omega)
  rw [store_some hx]
  simp only [Res.ok_bind, Res.pure_eq]
  have := write_overlay m buf ((sfOut (fun _ => []) its).take size) (List.replicate 0 0#8) [0#8]
  rw [hlen] at this
  rw [← write_singleton, this]
  congr 2
  omega

/-- The format "ab" at 16, a buffer of two bytes at 32. -/
def snMem : Mem := Mem.objects [(16, [97#8, 98#8, 0#8]), (32, [1#8, 1#8])]

theorem snCall : SfCall snMem 32 2 16 [.lit 97#8, .lit 98#8] :=
  ⟨by decide +kernel, by decide, by
    intro it hit
    simp only [List.mem_cons, List.not_mem_nil, or_false] at hit
    rcases hit with rfl | rfl
    · exact ⟨⟨by decide, by decide⟩, trivial⟩
    · exact ⟨⟨by decide, by decide⟩, trivial⟩⟩

/-- C39 fails when the text is as long as the buffer: the NUL is written behind it. -/
theorem C39_refuted : ¬ C39_full := by
  intro h
  obtain ⟨l, ret, h1, h2, h3⟩ := h snMem 32 2 16 [.lit 97#8, .lit 98#8] (by decide)
    (by intro i hi; exact Option.isSome_iff_exists.1 ((by decide +kernel : ∀ i < 2, (snMem (32 + i)).isSome) i hi)) snCall
  obtain ⟨k, a1, a2⟩ := snprintfsLoop_eq (m := snMem) (buf := 32) (size := 2) (fmt := 16)
    (by intro i hi; exact Option.isSome_iff_exists.1 ((by decide +kernel : ∀ i < 2, (snMem (32 + i)).isSome) i hi))
    [.lit 97#8, .lit 98#8] [] 0 0 (by simp) snCall.format (Or.inl (by decide)) snCall.items
  simp only [sfOut, List.flatMap_cons, SfItem.out, List.flatMap_nil, List.nil_append, List.singleton_append,
    List.take_succ_cons, List.take_nil, List.length_cons, List.length_nil, List.replicate_zero, write_nil] at a1 a2
  have hk : k = 0 := by omega
  subst hk
  unfold snprintfs at h1
  rw [a2] at h1
  simp only [Res.ok_bind] at h1
  rw [store_none (by decide +kernel)] at h1
  cases h1

/-- The hypotheses of C39 are met: "ab" into a buffer of 3 bytes. -/
example : ∃ k, 2 + k < 3 ∧ snprintfs (Mem.objects [(16, [97#8, 98#8, 0#8]), (32, [1#8, 1#8, 1#8])]) 32 3 16 [] =
    .ok ((Mem.objects [(16, [97#8, 98#8, 0#8]), (32, [1#8, 1#8, 1#8])]).write 32 ([97#8, 98#8] ++ List.replicate (k + 1) 0#8), 2) :=
  C39_snprintfs_partial (its := [.lit 97#8, .lit 98#8])
    (by intro i hi; exact Option.isSome_iff_exists.1 ((by decide +kernel : ∀ i < 3, ((Mem.objects [(16, [97#8, 98#8, 0#8]), (32, [1#8, 1#8, 1#8])]) (32 + i)).isSome) i hi))
    ⟨by decide +kernel, by decide, by
      intro it hit
      simp only [List.mem_cons, List.not_mem_nil, or_false] at hit
      rcases hit with rfl | rfl
      · exact ⟨⟨by decide, by decide⟩, trivial⟩
      · exact ⟨⟨by decide, by decide⟩, trivial⟩⟩ (by decide)

/-- C39 for every string given as format in which no `%` is followed by `s` or `c` (so no arguments are needed). -/
def C39_format_full : Prop :=
  ∀ (m : Mem) (buf size fmt : Nat) (t : List Byte), 0 < size → m.Mapped buf (size + 1) → m.IsStr fmt t →
    (fmt + t.length < buf ∨ buf + size + 1 ≤ fmt) →
    (∀ i, t[i]? = some 37#8 → t[i + 1]? ≠ some 115#8 ∧ t[i + 1]? ≠ some 99#8) → ∃ r, snprintfs m buf size fmt [] = .ok r

/-- The format "%" at 16, a buffer at 32. -/
def lonePct : Mem := Mem.objects [(16, [37#8, 0#8]), (32, [1#8, 1#8, 1#8])]

/-- C39 fails for a format that ends with '%': the loop steps over the NUL and reads on. -/
theorem C39_format_refuted : ¬ C39_format_full := by
  intro h
  obtain ⟨r, hr⟩ := h lonePct 32 2 16 [37#8] (by decide)
    (by intro i hi; exact Option.isSome_iff_exists.1 ((by decide +kernel : ∀ i < 3, (lonePct (32 + i)).isSome) i hi))
    (by decide +kernel) (by decide) (by
      intro i hi
      cases i <;> simp at hi ⊢)
  unfold snprintfs at hr
  rw [snprintfsLoop, load_some (show lonePct (16 + 0) = some 37#8 by decide +kernel)] at hr
  simp only [Res.ok_bind] at hr
  rw [if_pos (by decide), if_pos (by decide), load_some (show lonePct (16 + (0 + 1)) = some 0#8 by decide +kernel)] at hr
  simp only [Res.ok_bind] at hr
  rw [if_neg (by decide), if_neg (by decide), snprintfsLoop,
    load_none (show lonePct (16 + (0 + 2)) = none by decide +kernel)] at hr
  cases hr

/-! ### C40: dprintf and fprintf use the free part of the arena -/

theorem reach_write {A : Arena} {m₀ : Mem} (l : List Byte) : ∀ {c : Client} (i : Nat), Reach A m₀ c →
    ((i + l.length : Nat) : Int) ≤ c.heap.mbufsize →
    Reach A m₀ ⟨⟨c.heap.mem.write (A.base + i) l, c.heap.mbufsize⟩, c.live, c.shadow⟩ := by
  induction l with
  | nil => intro c i h _; rw [write_nil]; exact h
  | cons b l ih =>
    intro c i h hl
    rw [write_cons]
    simp only [List.length_cons] at hl
    exact ih (c := ⟨⟨c.heap.mem.upd (A.base + i) b, c.heap.mbufsize⟩, c.live, c.shadow⟩) (i + 1)
      (h.scratch i b (by omega)) (by simpa [Nat.add_assoc, Nat.add_comm 1] using hl)

/-- What C40 promises about the state after a print. -/
structure _root_.Spec.Undisturbed (A : Arena) (m₀ : Mem) (c : Client) (h : Heap) : Prop where
  /-- the program goes on as if nothing had been printed -/
  reach : Reach A m₀ ⟨h, c.live, c.shadow⟩
  /-- only bytes below the lowest block change -/
  frame : ∀ x, x < A.base ∨ (A.base : Int) + c.heap.mbufsize ≤ x → h.mem x = c.heap.mem x
  /-- in particular the contents of every block held, and the word in front of it, stay -/
  blocks : ∀ p n, (p, n) ∈ c.live → ∀ x, p - 4 ≤ x → x < p + n → h.mem x = c.heap.mem x

theorem undisturbed_write {A : Arena} {m₀ : Mem} (hA : A.Ok m₀) {c : Client} (r : Reach A m₀ c) {l : List Byte}
    (hl : l.length ≤ c.heap.mbufsize.toNat) (hpos : 0 < c.heap.mbufsize.toNat) :
    Undisturbed A m₀ c ⟨c.heap.mem.write A.base l, c.heap.mbufsize⟩ := by
  have frame : ∀ x, x < A.base ∨ (A.base : Int) + c.heap.mbufsize ≤ x → c.heap.mem.write A.base l x = c.heap.mem x := by
    intro x hx
    exact write_outside _ _ _ _ (by omega)
  refine ⟨reach_write l 0 r (by omega), frame, ?_⟩
  intro p n hp x h1 h2
  have := (C17_history hA r).2.2.1 p n hp
  exact frame x (by omega)

/-- C40: with any allocation history behind it, `dprintf` of any format of the grammar (except for the conversions
named in `SafeItem`) is defined and leaves every block, header and free block of the arena alone, also when the text does
not fit. -/
theorem C40_dprintf_partial {K : WKernel} {junk : Nat → Byte} {handled : Bool} {A : Arena} {m₀ : Mem} (hA : A.Ok m₀)
    {c : Client} (r : Reach A m₀ c) {fmt : Nat} {its : List Item}
    (hc : PfCall c.heap.mem A.base c.heap.mbufsize.toNat fmt its) (hs : ∀ it ∈ its, SafeItem it) (w : Writes) (fd : Int) :
    ∃ h w' e, dprintf K junk handled A c.heap w fd fmt (fmtArgs its) = .ok (h, w', e) ∧ Undisturbed A m₀ c h := by
  unfold dprintf
  rcases C37_vsnprintf_partial (junk := junk) hc hs with ⟨out, h1, h2⟩ | ⟨l, b, h1, h2, h3⟩
  · rw [h2]
    simp only [Res.ok_bind]
    rw [if_neg (by simp), if_neg (by omega)]
    have hh := (holds_append.1 (write_holds c.heap.mem A.base (out ++ [0#8]))).1
    rw [show ((out.length : Int)).toNat = out.length by omega, kwrite_eq hh]
    exact ⟨_, _, _, rfl, undisturbed_write hA r (by simp; omega) (by omega)⟩
  · rw [h3]
    simp only [Res.ok_bind]
    have hu := undisturbed_write hA r h1 hc.size_pos
    split
    · exact ⟨_, _, _, rfl, hu⟩
    · split
      · exact ⟨_, _, _, rfl, hu⟩
      · have hb : b = 0 := by omega
        subst hb
        exact ⟨_, _, _, rfl, hu⟩

/-- C40 for `fprintf` and `printf` (SIGSEGV not handled by the program). -/
theorem C40_fprintf_partial {K : WKernel} {junk : Nat → Byte} {A : Arena} {m₀ : Mem} (hA : A.Ok m₀)
    {c : Client} (r : Reach A m₀ c) {fmt : Nat} {its : List Item}
    (hc : PfCall c.heap.mem A.base c.heap.mbufsize.toNat fmt its) (hs : ∀ it ∈ its, SafeItem it) (w : Writes) (fd : Int) :
    ∃ h w' e, fprintf K junk false A c.heap w fd fmt (fmtArgs its) = .ok (h, w', e) ∧ Undisturbed A m₀ c h := by
  unfold fprintf
  rcases C37_vsnprintf_partial (junk := junk) hc hs with ⟨out, h1, h2⟩ | ⟨l, b, h1, h2, h3⟩
  · rw [h2]
    simp only [Res.ok_bind]
    rw [if_neg (by simp), if_neg (by omega)]
    have hh := (holds_append.1 (write_holds c.heap.mem A.base (out ++ [0#8]))).1
    rw [show ((out.length : Int)).toNat = out.length by omega, kwrite_eq hh]
    exact ⟨_, _, _, rfl, undisturbed_write hA r (by simp; omega) (by omega)⟩
  · rw [h3]
    simp only [Res.ok_bind]
    exact ⟨_, _, _, rfl, undisturbed_write hA r h1 hc.size_pos⟩

/-- C40 fails for `vfprintf`: used as the standard says, with a `va_list` (a pointer) as last argument, it takes that pointer for the first number. -/
theorem C40_va_list_refuted {K : WKernel} {junk : Nat → Byte} {handled : Bool} {A : Arena} {h : Heap} {w : Writes} {fd : Int} {fmt ap : Nat}
    {rest : List Byte} (hs : 13 < h.mbufsize) (hf : h.mem.Holds fmt (37#8 :: 100#8 :: rest)) : vfprintf K junk handled A h w fd fmt [.str ap] = .ub := by
  unfold vfprintf fprintf
  rw [vsnprintf_ub (mods := []) (last := ⟨false, [], 100#8⟩) (by simp) (by decide) (by decide) (by decide)
    (by rw [show 37#8 :: 100#8 :: rest = [37#8, 100#8] ++ rest from rfl, holds_append] at hf; exact hf.1) (fun a => by
      unfold pfSwitch
      rw [if_neg (by decide), if_neg (by decide), if_pos (by decide), if_pos (by decide)]
      unfold pfInt
      rw [if_neg (by omega)]
      rfl)]
  rfl

/-- C40 and C38: `dprintf` and `fprintf` of good items (padded strings included), with 27 bytes to spare (31 with %b), leave the
arena alone and offer exactly the text of the format to the descriptor, in one `write`; `dprintf` returns the length of
the text, `fprintf` what `write` answered. -/
theorem C40_text_partial {K : WKernel} {junk : Nat → Byte} {handled : Bool} {A : Arena} {m₀ : Mem} (hA : A.Ok m₀)
    {c : Client} (r : Reach A m₀ c) {fmt : Nat} {its : List Item}
    (hc : PfCall c.heap.mem A.base c.heap.mbufsize.toNat fmt its) (hg : ∀ it ∈ its, it.Good)
    (hroom : (render its).length + spare its < c.heap.mbufsize.toNat) (w : Writes) (fd : Int) :
    ∃ h, Undisturbed A m₀ c h ∧
      dprintf K junk handled A c.heap w fd fmt (fmtArgs its)
        = .ok (h, (sysWrite K w fd (render its)).1, .ret (render its).length) ∧
      fprintf K junk handled A c.heap w fd fmt (fmtArgs its)
        = .ok (h, (sysWrite K w fd (render its)).1, .ret (sysWrite K w fd (render its)).2) := by
  have hh := (holds_append.1 (write_holds c.heap.mem A.base (render its ++ [0#8]))).1
  unfold dprintf fprintf
  rw [C38_vsnprintf_partial hc hg hroom]
  simp only [Res.ok_bind]
  rw [if_neg (by simp), if_neg (by omega), if_neg (by simp), if_neg (by omega)]
  rw [show (((render its).length : Int)).toNat = (render its).length by omega, kwrite_eq hh]
  exact ⟨_, undisturbed_write hA r (l := render its ++ [0#8]) (by simp; omega) hc.size_pos, rfl, rfl⟩

/-- C40 for every format of the grammar. -/
def C40_full : Prop :=
  ∀ (K : WKernel) (junk : Nat → Byte) (A : Arena) (m₀ : Mem) (c : Client) (fmt : Nat) (its : List Item) (w : Writes) (fd : Int),
    A.Ok m₀ → Reach A m₀ c → PfCall c.heap.mem A.base c.heap.mbufsize.toNat fmt its →
    ∃ h w' e, dprintf K junk false A c.heap w fd fmt (fmtArgs its) = .ok (h, w', e) ∧ Undisturbed A m₀ c h

/-- A format, the empty string, and an arena of 256 bytes. -/
def dfMem (fmt : List Byte) : Mem := objects [(8, fmt), (40, [0#8]), (100, List.replicate 256 0#8)]

theorem pfStrPad_ub {buf : Nat} (n : Nat) : ∀ (m : Mem) (b i : Nat), i < n → m (buf + b + i) = none → pfStrPad m buf b n = .ub := by
  induction n with
  | zero => intro m b i h; omega
  | succ n ih =>
    intro m b i h hm
    unfold pfStrPad
    cases hb : m (buf + b) with
    | none => rw [store_none hb]; rfl
    | some x =>
      rw [store_some hb]
      simp only [Res.ok_bind]
      cases i with
      | zero => rw [Nat.add_zero, hb] at hm; cases hm
      | succ i =>
        refine ih _ _ i (by omega) ?_
        rw [upd_ne (by omega), ← hm]
        congr 1
        omega

/-- C40 fails for padded strings that do not fit: `dprintf(1, "%999s", "")` runs over the whole arena and its end. -/
theorem C40_refuted : ¬ C40_full := by
  intro h
  have hc : PfCall (dfMem [37, 57, 57, 57, 115, 0]) 100 252 8 [.conv [] false [9, 9, 9] (.str 40 [])] :=
    .of_check (by decide) (by decide +kernel) (by decide +kernel) (by decide +kernel) (by decide +kernel)
  obtain ⟨h', w', e, h, _⟩ := h (fun _ _ _ => 0) (fun _ => 0#8) ⟨100, 256⟩ (dfMem [37, 57, 57, 57, 115, 0]) _ 8 _ [] 1
    ⟨by decide, by decide, by decide, by decide, by decide, by decide +kernel⟩ .init hc
  unfold dprintf at h
  simp only [Heap.init] at h
  rw [show ((256 : Nat) : Int) - 4 = 252 by decide, show (252 : Int).toNat = 252 by decide] at h
  rw [vsnprintf_ub (mods := []) (last := ⟨false, [9, 9, 9], 115#8⟩) (by decide) (by decide +kernel) (by decide) (by decide)
    (by decide +kernel) (fun a => ?_)] at h
  · cases h
  · show pfStr _ _ _ _ _ _ = _
    unfold pfStr
    have hl : strlen (dfMem [37, 57, 57, 57, 115, 0]) 40 = .ok 0 := by
      rw [strlen, if_neg (by decide), strlenLoop, load_some (b := 0#8) (by decide +kernel)]; rfl
    show (strlen (dfMem [37, 57, 57, 57, 115, 0]) 40 >>= _) = _
    rw [hl]
    simp only [Res.ok_bind]
    rw [pfStrPad_ub _ _ _ 300 (by decide) (by decide +kernel)]
    rfl

/-- The hypotheses of C40 are met by `dprintf(1, "%03x", 10)` right after the start. -/
example (K : WKernel) : ∃ h, dprintf K (fun _ => 0#8) false ⟨100, 256⟩ (Heap.init ⟨100, 256⟩ (dfMem [37, 120, 0])) [] 1 8 [.int 10#32]
      = .ok (h, (sysWrite K [] 1 [97#8]).1, .ret 1) := by
  have hr : render [Item.conv [] false [] (.hex 10#32)] = [97#8] := by decide +kernel
  obtain ⟨h, _, h2, _⟩ := C40_text_partial (K := K) (junk := fun _ => 0#8) (handled := false) (A := ⟨100, 256⟩) (m₀ := dfMem [37, 120, 0])
    ⟨by decide, by decide, by decide, by decide, by decide, by decide +kernel⟩ .init (fmt := 8)
    (its := [.conv [] false [] (.hex 10#32)])
    (.of_check (by decide) (by decide +kernel) (by decide +kernel) (by decide +kernel) (by decide +kernel))
    (by decide +kernel) (by rw [hr]; decide) [] 1
  rw [hr] at h2
  exact ⟨h, h2⟩

/-- C68: `fputs("ab")`. -/
example (K : WKernel) : fputs K dpMem [] 16 1 = .ok (sysWrite K [] 1 [97#8, 98#8]) :=
  C68_fputs (by decide +kernel) (by decide) (by decide)

/-- C39: "abc" into a buffer of 2 bytes stores 3. -/
example : snprintfs (Mem.objects [(16, [97#8, 98#8, 99#8, 0#8]), (32, [1#8, 1#8, 1#8])]) 32 2 16 [] =
    .ok ((Mem.objects [(16, [97#8, 98#8, 99#8, 0#8]), (32, [1#8, 1#8, 1#8])]).write 32 [97#8, 98#8, 0#8], 2) :=
  C39_snprintfs_cut_partial (its := [.lit 97#8, .lit 98#8, .lit 99#8])
    (by intro i hi; exact Option.isSome_iff_exists.1 ((by decide +kernel : ∀ i < 3, ((Mem.objects [(16, [97#8, 98#8, 99#8, 0#8]), (32, [1#8, 1#8, 1#8])]) (32 + i)).isSome) i hi))
    ⟨by decide +kernel, by decide, by
      intro it hit
      simp only [List.mem_cons, List.not_mem_nil, or_false] at hit
      rcases hit with rfl | rfl | rfl <;> exact ⟨⟨by decide, by decide⟩, trivial⟩⟩ (by decide)

/-- C40: "%x" with 10 by `dprintf` and `fprintf`. -/
example (K : WKernel) : (∃ h w' e, dprintf K (fun _ => 0#8) false ⟨100, 256⟩ (Heap.init ⟨100, 256⟩ (dfMem [37, 120, 0])) [] 1 8 [.int 10#32] = .ok (h, w', e)) ∧
    ∃ h w' e, fprintf K (fun _ => 0#8) false ⟨100, 256⟩ (Heap.init ⟨100, 256⟩ (dfMem [37, 120, 0])) [] 1 8 [.int 10#32] = .ok (h, w', e) := by
  have hA : Arena.Ok ⟨100, 256⟩ (dfMem [37, 120, 0]) := ⟨by decide, by decide, by decide, by decide, by decide, by decide +kernel⟩
  constructor
  · obtain ⟨h, w', e, h1, -⟩ := C40_dprintf_partial (K := K) (junk := fun _ => 0#8) (handled := false) hA .init (fmt := 8)
      (its := [.conv [] false [] (.hex 10#32)])
      (.of_check (by decide) (by decide +kernel) (by decide +kernel) (by decide +kernel) (by decide +kernel)) (by decide +kernel) [] 1
    exact ⟨h, w', e, h1⟩
  · obtain ⟨h, w', e, h1, -⟩ := C40_fprintf_partial (K := K) (junk := fun _ => 0#8) hA .init (fmt := 8)
      (its := [.conv [] false [] (.hex 10#32)])
      (.of_check (by decide) (by decide +kernel) (by decide +kernel) (by decide +kernel) (by decide +kernel)) (by decide +kernel) [] 1
    exact ⟨h, w', e, h1⟩

/-- C40: "%d" by `vfprintf` with a `va_list`. -/
example (K : WKernel) : vfprintf K (fun _ => 0#8) false ⟨100, 256⟩ (Heap.init ⟨100, 256⟩ (dfMem [37, 100, 0])) [] 1 8 [.str 16] = .ub :=
  C40_va_list_refuted (rest := [0#8]) (by decide) (by decide +kernel)

end Minilib

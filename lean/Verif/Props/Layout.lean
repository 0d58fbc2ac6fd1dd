import Verif.Lemmas.Layout
/-
C100 Records of the kernel and structures of the headers: every item of a record is the member of the same name; file modes, directory entry types and ioctl
numbers.
-/

set_option autoImplicit false

namespace Minilib

/-- The structures of the headers, each with the record it stands for; unions once for every record they can hold. -/
def exchanged : List (CDecl × Spec.Record) := [
  (Decl.timeval, Spec.timevalR), (Decl.timespec, Spec.timespecR), (Decl.itimerval, Spec.itimervalR), (Decl.itimerspec, Spec.itimerspecR),
  (Decl.iovec, Spec.iovecR), (Decl.utimbuf, Spec.utimbufR), (Decl.timezone, Spec.timezoneR), (Decl.fdset, Spec.fdsetR), (Decl.stat, Spec.statR),
  (Decl.winsize, Spec.winsizeR), (Decl.termios, Spec.termiosR), (Decl.termio, Spec.termioR), (Decl.pollfd, Spec.pollfdR),
  (Decl.epollEvent, Spec.epollEventR), (Decl.tms, Spec.tmsR), (Decl.utsname, Spec.utsnameR), (Decl.rusage, Spec.rusageR), (Decl.rlimit, Spec.rlimitR),
  (Decl.inotifyEvent, Spec.inotifyR), (Decl.sigaction, Spec.sigactionR), (Decl.siginfo, Spec.siKillR), (Decl.siginfo, Spec.siTimerR),
  (Decl.siginfo, Spec.siRtR), (Decl.siginfo, Spec.siChldR), (Decl.siginfo, Spec.siFaultR), (Decl.siginfo, Spec.siPollR),
  (Decl.prctlMmMap, Spec.prctlMmMapR), (Decl.seccompData, Spec.seccompDataR), (Decl.seccompNotif, Spec.seccompNotifR),
  (Decl.seccompResp, Spec.seccompRespR), (Decl.sockaddr, Spec.sockaddrR), (Decl.sockaddrIn, Spec.sockaddrInR), (Decl.sockaddrLl, Spec.sockaddrLlR),
  (Decl.packetMreq, Spec.packetMreqR), (Decl.ifreq, Spec.ifAddrR "ifru_addr"), (Decl.ifreq, Spec.ifAddrR "ifru_dstaddr"),
  (Decl.ifreq, Spec.ifAddrR "ifru_broadaddr"), (Decl.ifreq, Spec.ifAddrR "ifru_netmask"), (Decl.ifreq, Spec.ifAddrR "ifru_hwaddr"),
  (Decl.ifreq, Spec.ifFlagsR), (Decl.ifreq, Spec.ifIntR "ifru_ivalue"), (Decl.ifreq, Spec.ifIntR "ifru_mtu"), (Decl.ifreq, Spec.ifMapR),
  (Decl.ifreq, Spec.ifNameR "ifru_slave"), (Decl.ifreq, Spec.ifNameR "ifru_newname"), (Decl.ifreq, Spec.ifDataR), (Decl.rtentry, Spec.rtentryR),
  (Decl.in6Rtmsg, Spec.in6RtmsgR), (Decl.udphdr, Spec.udphdrR), (Decl.ethhdr, Spec.ethhdrR), (Decl.iphdr, Spec.iphdrR), (Decl.ip, Spec.ipR)]

/-- The items of the list are where the declaration has them. -/
def placed (d : CDecl) (s : Spec.Slot) : Bool := d.leaf? (s.path.map toSel) == some ⟨s.path.map toSel, 8 * s.off, 8 * s.width⟩

/-- The items follow each other without overlap, the first one not before `a`. -/
def ordered : Nat → List Spec.Slot → Bool
  | _, [] => true
  | a, s :: r => decide (a ≤ s.off) && ordered (s.off + s.width) r

/-- The check that is computed for every structure. -/
def agrees (x : CDecl × Spec.Record) : Bool :=
  decide (x.2.size ≤ x.1.sizeof) && x.2.slots.all (fun s => placed x.1 s && decide (s.off + s.width ≤ x.2.size)) && ordered 0 x.2.slots

theorem exchanged_agree : exchanged.all agrees = true := by decide +kernel

theorem ordered_le {a : Nat} {l : List Spec.Slot} (h : ordered a l = true) {s : Spec.Slot} (hs : s ∈ l) : a ≤ s.off := by
  induction l generalizing a with
  | nil => simp at hs
  | cons t l ih =>
    simp only [ordered, Bool.and_eq_true, decide_eq_true_eq] at h
    rcases List.mem_cons.1 hs with rfl | hs
    · exact h.1
    · have := ih h.2 hs
      omega

theorem ordered_disjoint {a : Nat} {l : List Spec.Slot} (h : ordered a l = true) {s t : Spec.Slot} (hs : s ∈ l) (ht : t ∈ l) (hne : s ≠ t) :
    s.off + s.width ≤ t.off ∨ t.off + t.width ≤ s.off := by
  induction l generalizing a with
  | nil => simp at hs
  | cons x l ih =>
    simp only [ordered, Bool.and_eq_true, decide_eq_true_eq] at h
    rcases List.mem_cons.1 hs with e | hs'
    · rcases List.mem_cons.1 ht with e' | ht'
      · exact absurd (e.trans e'.symm) hne
      · exact Or.inl (e ▸ ordered_le h.2 ht')
    · rcases List.mem_cons.1 ht with e' | ht'
      · exact Or.inr (e' ▸ ordered_le h.2 hs')
      · exact ih h.2 hs' ht'

theorem agrees_of {d : CDecl} {r : Spec.Record} (h : (d, r) ∈ exchanged) :
    r.size ≤ d.sizeof ∧ (∀ s ∈ r.slots, d.leaf? (s.path.map toSel) = some ⟨s.path.map toSel, 8 * s.off, 8 * s.width⟩ ∧ s.off + s.width ≤ r.size) ∧
    ordered 0 r.slots = true := by
  have := List.all_eq_true.1 exchanged_agree _ h
  simp only [agrees, placed, Bool.and_eq_true, decide_eq_true_eq, List.all_eq_true, beq_iff_eq] at this
  exact ⟨this.1.1, this.1.2, this.2⟩

/-- Reading.  Whatever values the kernel put into a record, the member of a structure with the name of an item has the value of the item. -/
theorem C100_read {d : CDecl} {r : Spec.Record} (h : (d, r) ∈ exchanged) (m : Mem) (p : Nat) (v : List Spec.Step → Nat) (hr : r.At m p v)
    {s : Spec.Slot} (hs : s ∈ r.slots) : getMember d p (s.path.map toSel) m = .ok (v s.path % 256 ^ s.width) := by
  have hp := (agrees_of h).2.1 s hs
  have hh := hr s hs
  rw [le_eq] at hh
  exact getMember_eq hp.1 rfl rfl hh

/-- The values after assignments, the last one to an item counts. -/
def _root_.Spec.assigned (v : List Spec.Step → Nat) : List (List Spec.Step × Nat) → List Spec.Step → Nat
  | [] => v
  | (π, x) :: r => Spec.assigned (fun q => if q = π then x else v q) r

/-- Writing.  After any sequence of assignments to members of a structure, in any order and repeatedly, the kernel finds the last assigned values in its
record, all other items are unchanged, and so is everything outside of the record. -/
theorem C100_write {d : CDecl} {r : Spec.Record} (h : (d, r) ∈ exchanged) (m : Mem) (p : Nat) (v : List Spec.Step → Nat) (hr : r.At m p v)
    (l : List (List Spec.Step × Nat)) (hl : ∀ a ∈ l, ∃ s ∈ r.slots, s.path = a.1) :
    ∃ m', setMembers d p (l.map fun a => (a.1.map toSel, a.2)) m = .ok m' ∧ r.At m' p (Spec.assigned v l) ∧
      ∀ a, ¬ (p ≤ a ∧ a < p + r.size) → m' a = m a := by
  obtain ⟨_, hp, ho⟩ := agrees_of h
  induction l generalizing m v with
  | nil => exact ⟨m, rfl, hr, fun _ _ => rfl⟩
  | cons a l ih =>
    obtain ⟨π, x⟩ := a
    obtain ⟨s, hs, rfl⟩ := hl _ (List.mem_cons_self ..)
    have hh := hr s hs
    rw [le_eq] at hh
    have e := setMember_eq (x := x) (hp s hs).1 rfl rfl hh
    have hr' : r.At (m.write (p + s.off) (natBytes s.width x)) p (fun q => if q = s.path then x else v q) := by
      intro t ht
      by_cases hst : t.path = s.path
      · have : t = s := by
          have h1 := (hp t ht).1
          rw [hst, (hp s hs).1] at h1
          simp only [Option.some.injEq, Leaf.mk.injEq, true_and] at h1
          obtain ⟨tp, toff, tw⟩ := t
          obtain ⟨sp, soff, sw⟩ := s
          simp only at hst h1
          rw [hst, Spec.Slot.mk.injEq]
          exact ⟨rfl, by omega, by omega⟩
        subst this
        simp only [if_pos]
        rw [le_eq]
        exact Mem.write_holds _ _ _
      · simp only [if_neg hst]
        refine Mem.Holds.write (hr t ht) ?_
        have := ordered_disjoint ho hs ht (fun e => hst (by rw [e]))
        rw [le_eq, length_natBytes, length_natBytes]
        omega
    obtain ⟨m', h1, h2, h3⟩ := ih (m.write (p + s.off) (natBytes s.width x)) _ hr' (fun a ha => hl a (List.mem_cons_of_mem _ ha))
    refine ⟨m', ?_, h2, ?_⟩
    · simp only [List.map_cons, setMembers, e, Res.ok_bind]
      exact h1
    · intro a ha
      rw [h3 a ha]
      apply Mem.write_outside
      have := (hp s hs).2
      rw [length_natBytes]
      omega

/-- Room.  No structure is smaller than the record the kernel stores to its address. -/
theorem C100_room {d : CDecl} {r : Spec.Record} (h : (d, r) ∈ exchanged) : r.size ≤ d.sizeof := (agrees_of h).1

/-- The whole structure is the record: as many bytes as the kernel reads or stores. -/
def C100_sizes_full : Prop := ∀ d r, (d, r) ∈ exchanged → d.sizeof = r.size

/-- `struct termios` has 32 control characters and two speeds, the kernel's record 19 and none: 24 bytes are neither stored nor read by the kernel. -/
theorem C100_sizes_refuted : ¬ C100_sizes_full := by
  intro h
  exact absurd (h Decl.termios Spec.termiosR (by simp [exchanged])) (by decide +kernel)

/-- All structures but termios have the size of their record. -/
theorem C100_sizes_partial {d : CDecl} {r : Spec.Record} (h : (d, r) ∈ exchanged) (hr : r.size ≠ 36) : d.sizeof = r.size := by
  have : exchanged.all (fun x => x.2.size == 36 || x.1.sizeof == x.2.size) = true := by decide +kernel
  have := List.all_eq_true.1 this _ h
  simpa [hr] using this

/-- What the kernel stored determines the members. -/
def C100_members_full : Prop := ∀ d r, (d, r) ∈ exchanged → ∀ l ∈ d.leaves [] 0, ∀ (m m' : Mem) (p : Nat) (bs : List Byte), bs.length = d.sizeof →
  m.Mapped p d.sizeof → m'.Mapped p d.sizeof →
  getMember d p l.path (m.write p (bs.take r.size)) = getMember d p l.path (m'.write p (bs.take r.size))

/-- The speeds of a `struct termios` are what the memory contained before. -/
theorem C100_members_refuted : ¬ C100_members_full := by
  intro h
  have e : Decl.termios.sizeof = 60 := by decide +kernel
  have := h Decl.termios Spec.termiosR (by simp [exchanged]) ⟨[.f "__c_ospeed"], 448, 32⟩ (by decide +kernel)
    (Mem.object 64 (List.replicate 60 0#8)) (Mem.object 64 (List.replicate 60 1#8)) 64 (List.replicate 60 7#8) (by decide +kernel)
    (fun i hi => ⟨_, Mem.holds_object 64 (List.replicate 60 0#8) i (by rw [e] at hi; simpa using hi)⟩)
    (fun i hi => ⟨_, Mem.holds_object 64 (List.replicate 60 1#8) i (by rw [e] at hi; simpa using hi)⟩)
  revert this
  decide +kernel

/-- Names of unknown length start where the kernel puts them: after the 18 bytes of a directory entry of getdents, after the 16 of an event of inotify. -/
theorem C100_names : Decl.dirent.offsetof "d_name" = some 18 ∧ Decl.dirent.offsetof "d_ino" = some 0 ∧ Decl.dirent.offsetof "d_off" = some 8 ∧
    Decl.dirent.offsetof "d_reclen" = some 16 ∧ Decl.inotifyEvent.offsetof "name" = some 16 := by decide +kernel

theorem nibble {d : CDecl} {p : Nat} {π : List Sel} {m : Mem} {l : Leaf} {b : Byte} (hl : d.leaf? π = some l) (hw : l.width = 4)
    (ho : l.off % 8 = 0 ∨ l.off % 8 = 4) (h : m (p + l.off / 8) = some b) : getMember d p π m = .ok (b.toNat / 2 ^ (l.off % 8) % 16) := by
  have hb : l.bytes = (l.off / 8, 1) := by
    simp only [Leaf.bytes, hw, Prod.mk.injEq, true_and]
    omega
  have hL : m.loadBytes (p + l.off / 8) 1 = .ok [b] := by
    simp [Mem.loadBytes, Mem.load_some h]
  simp only [getMember, hl, hb, hL, Res.ok_bind, hw]
  simp [bytesNat, pure]

/-- The first byte of an IP packet has the version in its upper half and the length in its lower half (RFC 791); the flags of a timestamp option are in the
lower half of its byte, the overflow count in the upper half — for every byte. -/
theorem C100_nibbles (m : Mem) (p : Nat) (b : Byte) :
    (m p = some b → getMember Decl.iphdr p [.f "version"] m = .ok (b.toNat / 16) ∧ getMember Decl.iphdr p [.f "ihl"] m = .ok (b.toNat % 16) ∧
      getMember Decl.ip p [.f "ip_v"] m = .ok (b.toNat / 16) ∧ getMember Decl.ip p [.f "ip_hl"] m = .ok (b.toNat % 16)) ∧
    (m (p + 2) = some b → getMember Decl.timestamp p [.f "overflow"] m = .ok (b.toNat / 16) ∧
      getMember Decl.timestamp p [.f "flags"] m = .ok (b.toNat % 16)) ∧
    (m (p + 3) = some b → getMember Decl.ipTimestamp p [.f "ipt_oflw"] m = .ok (b.toNat / 16) ∧
      getMember Decl.ipTimestamp p [.f "ipt_flg"] m = .ok (b.toNat % 16)) := by
  have hb := b.isLt
  have e1 : b.toNat / 2 ^ 4 % 16 = b.toNat / 16 := by omega
  have e2 : b.toNat / 2 ^ 0 % 16 = b.toNat % 16 := by omega
  refine ⟨fun h => ⟨?_, ?_, ?_, ?_⟩, fun h => ⟨?_, ?_⟩, fun h => ⟨?_, ?_⟩⟩
  · exact e1 ▸ nibble (l := ⟨[.f "version"], 4, 4⟩) (by decide +kernel) rfl (by decide) h
  · exact e2 ▸ nibble (l := ⟨[.f "ihl"], 0, 4⟩) (by decide +kernel) rfl (by decide) h
  · exact e1 ▸ nibble (l := ⟨[.f "ip_v"], 4, 4⟩) (by decide +kernel) rfl (by decide) h
  · exact e2 ▸ nibble (l := ⟨[.f "ip_hl"], 0, 4⟩) (by decide +kernel) rfl (by decide) h
  · exact e1 ▸ nibble (l := ⟨[.f "overflow"], 20, 4⟩) (by decide +kernel) rfl (by decide) h
  · exact e2 ▸ nibble (l := ⟨[.f "flags"], 16, 4⟩) (by decide +kernel) rfl (by decide) h
  · exact e1 ▸ nibble (l := ⟨[.f "ipt_oflw"], 28, 4⟩) (by decide +kernel) rfl (by decide) h
  · exact e2 ▸ nibble (l := ⟨[.f "ipt_flg"], 24, 4⟩) (by decide +kernel) rfl (by decide) h

theorem nibble_set {d : CDecl} {p : Nat} {π : List Sel} {m : Mem} {l : Leaf} {b : Byte} {x : Nat} (hl : d.leaf? π = some l) (hw : l.width = 4)
    (ho : l.off / 8 = 0) (h : m p = some b) : l.off = 0 ∨ l.off = 4 →
    setMember d p π x m = .ok (m.upd p (BitVec.ofNat 8 (if l.off = 0 then b.toNat / 16 * 16 + x % 16 else x % 16 * 16 + b.toNat % 16))) := by
  intro h04
  have hb : l.bytes = (0, 1) := by
    simp only [Leaf.bytes, hw, Prod.mk.injEq]
    omega
  have hL : m.loadBytes p 1 = .ok [b] := by
    simp [Mem.loadBytes, Mem.load_some h]
  have hlt := b.isLt
  simp only [setMember, hl, hb, Nat.add_zero, hL, Res.ok_bind, hw, bytesNat, Nat.mul_zero, natBytes, Mem.storeBytes, Mem.store_some h]
  rcases h04 with e | e <;> simp [e, pure]
  · congr 2
    omega
  · congr 2
    omega

/-- Assigning one half of the byte leaves the other one as it was. -/
theorem C100_nibbles_set (m : Mem) (p : Nat) (b : Byte) (x : Nat) (h : m p = some b) :
    setMember Decl.iphdr p [.f "version"] x m = .ok (m.upd p (BitVec.ofNat 8 (x % 16 * 16 + b.toNat % 16))) ∧
    setMember Decl.iphdr p [.f "ihl"] x m = .ok (m.upd p (BitVec.ofNat 8 (b.toNat / 16 * 16 + x % 16))) ∧
    setMember Decl.ip p [.f "ip_v"] x m = .ok (m.upd p (BitVec.ofNat 8 (x % 16 * 16 + b.toNat % 16))) ∧
    setMember Decl.ip p [.f "ip_hl"] x m = .ok (m.upd p (BitVec.ofNat 8 (b.toNat / 16 * 16 + x % 16))) :=
  ⟨nibble_set (l := ⟨[.f "version"], 4, 4⟩) (by decide +kernel) rfl rfl h (Or.inr rfl),
    nibble_set (l := ⟨[.f "ihl"], 0, 4⟩) (by decide +kernel) rfl rfl h (Or.inl rfl),
    nibble_set (l := ⟨[.f "ip_v"], 4, 4⟩) (by decide +kernel) rfl rfl h (Or.inr rfl),
    nibble_set (l := ⟨[.f "ip_hl"], 0, 4⟩) (by decide +kernel) rfl rfl h (Or.inl rfl)⟩

/-- The rules of C, for every declaration (structures, unions, arrays, packed structures, bit-fields, nested in any way): all scalars are inside of the object;
without unions no two of them overlap and they are in the order of their declaration; without bit-fields and packed structures each is at a multiple of its
own size; and arrays of the type need no padding. -/
theorem C100_layout (d : CDecl) (hd : d.WF) :
    (∀ l ∈ d.leaves [] 0, l.off + l.width ≤ d.size) ∧
    (d.NoUnion → (d.leaves [] 0).Pairwise fun a b => a.off + a.width ≤ b.off) ∧
    (d.Plain → ∀ l ∈ d.leaves [] 0, l.width ∣ l.off) ∧ d.align ∣ d.size :=
  ⟨fun l hl => by have := (d.leaf_bounds [] 0 hd l hl).2; omega, fun hn => d.leaf_disjoint [] 0 hd hn,
    fun hn => d.leaf_aligned [] 0 hd hn (Nat.dvd_zero _), d.align_size⟩

/-! ### Modes and directory entries -/

/-- The kinds of files. -/
inductive _root_.Spec.Kind
  | fifo | chr | dir | blk | reg | lnk | sock
deriving DecidableEq, Repr

/-- The number of a kind, in bits 12 to 15 of a mode and in the type of a directory entry (Linux). -/
def _root_.Spec.Kind.nr : Spec.Kind → Nat
  | .fifo => 1
  | .chr => 2
  | .dir => 4
  | .blk => 6
  | .reg => 8
  | .lnk => 10
  | .sock => 12

/-- The macro that asks for a kind. -/
def asks : Spec.Kind → BitVec 32 → Bool
  | .fifo => sISFIFO
  | .chr => sISCHR
  | .dir => sISDIR
  | .blk => sISBLK
  | .reg => sISREG
  | .lnk => sISLNK
  | .sock => sISSOCK

theorem and_ifmt (m : BitVec 32) : m &&& sIFMT = ((m >>> 12) &&& 0xf#32) <<< 12 := by
  apply BitVec.eq_of_getLsbD_eq
  intro i hi
  have : ∀ j : Fin 32, sIFMT.getLsbD j.1 = (decide (12 ≤ j.1) && (0xf#32).getLsbD (j.1 - 12)) := by decide +kernel
  have := this ⟨i, hi⟩
  simp only at this
  simp only [BitVec.getLsbD_and, BitVec.getLsbD_shiftLeft, BitVec.getLsbD_ushiftRight, this, hi, decide_true, Bool.true_and]
  by_cases h : 12 ≤ i
  · simp [h, show ¬ i < 12 by omega, show 12 + (i - 12) = i by omega]
  · simp [h, show i < 12 by omega]

theorem and_ifmt_nat (m : BitVec 32) : (m &&& sIFMT).toNat = m.toNat / 4096 % 16 * 4096 := by
  have h15 : (m >>> 12 &&& 0xf#32).toNat = m.toNat / 4096 % 16 := by
    rw [BitVec.toNat_and, BitVec.toNat_ushiftRight, Nat.shiftRight_eq_div_pow]
    exact Nat.and_two_pow_sub_one_eq_mod _ 4
  rw [and_ifmt, BitVec.toNat_shiftLeft, h15, Nat.shiftLeft_eq]
  omega

/-- The macros on modes.  For every mode — whatever its permissions and further bits — the macro of a kind is true exactly when the mode is of that kind. -/
theorem C100_kinds (k : Spec.Kind) (m : BitVec 32) : asks k m = true ↔ m.toNat / 4096 % 16 = k.nr := by
  have h := and_ifmt_nat m
  have key : ∀ c : BitVec 32, ∀ n, c.toNat = n * 4096 → ((m &&& sIFMT == c) = true ↔ m.toNat / 4096 % 16 = n) := by
    intro c n hc
    rw [beq_iff_eq, ← BitVec.toNat_inj, h, hc]
    omega
  cases k
  · exact key sIFIFO 1 rfl
  · exact key sIFCHR 2 rfl
  · exact key sIFDIR 4 rfl
  · exact key sIFBLK 6 rfl
  · exact key sIFREG 8 rfl
  · exact key sIFLNK 10 rfl
  · exact key sIFSOCK 12 rfl

/-- At most one of the macros is true. -/
theorem C100_one_kind (k j : Spec.Kind) (m : BitVec 32) (hk : asks k m = true) (hj : asks j m = true) : k = j := by
  rw [C100_kinds] at hk hj
  have : k.nr = j.nr := hk.symm.trans hj
  cases k <;> cases j <;> simp_all [Spec.Kind.nr]

/-- IFTODT gives the type of the directory entry of a file with this mode, and DTTOIF gives a mode of the same kind back. -/
theorem C100_entry_types (m : BitVec 32) : (ifToDt m).toNat = m.toNat / 4096 % 16 ∧ dtToIf (ifToDt m) = m &&& sIFMT := by
  refine ⟨?_, (and_ifmt m).symm⟩
  rw [ifToDt, BitVec.toNat_and, BitVec.toNat_ushiftRight, Nat.shiftRight_eq_div_pow]
  exact Nat.and_two_pow_sub_one_eq_mod _ 4

/-! ### ioctl numbers -/

/-- The number of an ioctl request (Linux): the number in bits 0-7, the type in bits 8-15, the size of the argument in bits 16-29, the direction above. -/
def _root_.Spec.request (dir size type nr : Nat) : Nat := dir * 2 ^ 30 + size * 2 ^ 16 + type * 2 ^ 8 + nr

theorem or_add {a b n : Nat} (h : b < 2 ^ n) : a * 2 ^ n ||| b = a * 2 ^ n + b := by
  rw [Nat.mul_comm]
  exact (Nat.two_pow_add_eq_or_of_lt h a).symm

/-- For all directions, types, numbers and sizes that fit in their bits, the macro computes the request. -/
theorem C100_ioc (dir type nr : BitVec 32) (size : BitVec 64) (hd : dir.toNat < 4) (ht : type.toNat < 256) (hn : nr.toNat < 256)
    (hs : size.toNat < 16384) : (ioc dir type nr size).toNat = Spec.request dir.toNat size.toNat type.toNat nr.toNat := by
  simp only [ioc, BitVec.toNat_or, BitVec.toNat_setWidth, BitVec.toNat_shiftLeft, Nat.shiftLeft_eq, Spec.request]
  have e1 : dir.toNat * 2 ^ 30 % 2 ^ 32 % 2 ^ 64 = dir.toNat * 2 ^ 30 := by
    rw [Nat.mod_eq_of_lt (b := 2 ^ 32) (by omega), Nat.mod_eq_of_lt (by omega)]
  have e2 : type.toNat * 2 ^ 8 % 2 ^ 32 % 2 ^ 64 = type.toNat * 2 ^ 8 := by
    rw [Nat.mod_eq_of_lt (b := 2 ^ 32) (by omega), Nat.mod_eq_of_lt (by omega)]
  have e3 : nr.toNat % 2 ^ 64 = nr.toNat := Nat.mod_eq_of_lt (by omega)
  have e4 : size.toNat * 2 ^ 16 % 2 ^ 64 = size.toNat * 2 ^ 16 := Nat.mod_eq_of_lt (by omega)
  rw [e1, e2, e3, e4]
  have a1 : type.toNat * 2 ^ 8 ||| nr.toNat = type.toNat * 2 ^ 8 + nr.toNat := or_add hn
  have a2 : size.toNat * 2 ^ 16 ||| (type.toNat * 2 ^ 8 + nr.toNat) = size.toNat * 2 ^ 16 + (type.toNat * 2 ^ 8 + nr.toNat) := or_add (by omega)
  have a3 : dir.toNat * 2 ^ 30 ||| (size.toNat * 2 ^ 16 + (type.toNat * 2 ^ 8 + nr.toNat)) =
    dir.toNat * 2 ^ 30 + (size.toNat * 2 ^ 16 + (type.toNat * 2 ^ 8 + nr.toNat)) := or_add (by omega)
  rw [Nat.or_assoc (dir.toNat * 2 ^ 30), a1, Nat.or_assoc, Nat.or_comm _ (size.toNat * 2 ^ 16), a2, a3]
  omega

/-- Requests are different whenever one of their parts is. -/
theorem C100_ioc_injective (dir type nr dir' type' nr' : BitVec 32) (size size' : BitVec 64) (hd : dir.toNat < 4) (ht : type.toNat < 256)
    (hn : nr.toNat < 256) (hs : size.toNat < 16384) (hd' : dir'.toNat < 4) (ht' : type'.toNat < 256) (hn' : nr'.toNat < 256)
    (hs' : size'.toNat < 16384) (h : ioc dir type nr size = ioc dir' type' nr' size') : dir = dir' ∧ type = type' ∧ nr = nr' ∧ size = size' := by
  have e := congrArg BitVec.toNat h
  rw [C100_ioc _ _ _ _ hd ht hn hs, C100_ioc _ _ _ _ hd' ht' hn' hs'] at e
  simp only [Spec.request] at e
  refine ⟨?_, ?_, ?_, ?_⟩ <;> apply BitVec.eq_of_toNat_eq <;> omega

/-- For every type of argument, without a limit on its size. -/
def C100_ioc_full : Prop := ∀ (type nr : BitVec 32) (d d' : CDecl), type.toNat < 256 → nr.toNat < 256 →
  iocW type nr d = iocR type nr d' → False

/-- An argument of 16384 bytes reaches into the direction: `_IOW` of such a type and `_IOR` of another are the same request. -/
theorem C100_ioc_refuted : ¬ C100_ioc_full := by
  intro h
  have e (n : Nat) : (CDecl.arr n (.scal 1)).sizeof = n := by simp [CDecl.sizeof, CDecl.size]
  refine h 0x54#32 1#32 (.arr 49152 (.scal 1)) (.arr 16384 (.scal 1)) (by decide +kernel) (by decide +kernel) ?_
  rw [iocW, iocR, e, e]
  decide +kernel

/-- The requests of the headers that carry a size: TIOCGPTN, TIOCSPTLCK, TIOCGDEV, TIOCSIG, TIOCGPKT, TIOCGPTLCK, TIOCGEXCL
(headers/common/bits/ioctl.h:60-71, of type 'T' with an `int`), and those of seccomp (headers/linux_x64/seccomp.h:88-92), whose sizes are those of its
structures. -/
theorem C100_requests :
    iocR 0x54#32 0x30#32 (.scal 4) = 0x80045430#64 ∧ iocW 0x54#32 0x31#32 (.scal 4) = 0x40045431#64 ∧ iocR 0x54#32 0x32#32 (.scal 4) = 0x80045432#64 ∧
    iocW 0x54#32 0x36#32 (.scal 4) = 0x40045436#64 ∧ iocR 0x54#32 0x38#32 (.scal 4) = 0x80045438#64 ∧ iocR 0x54#32 0x39#32 (.scal 4) = 0x80045439#64 ∧
    iocR 0x54#32 0x40#32 (.scal 4) = 0x80045440#64 ∧ iocRW 0x21#32 0#32 Decl.seccompNotif = 0xC0502100#64 ∧
    iocRW 0x21#32 1#32 Decl.seccompResp = 0xC0182101#64 ∧ iocNone 0x54#32 1#32 = 0x5401#64 := by decide +kernel

/-! ### Examples -/

/-- Values for the items of a record of poll. -/
def exVal (π : List Spec.Step) : Nat := if π = [.f "fd"] then 5 else if π = [.f "events"] then 1 else 0x11

example : (Decl.pollfd, Spec.pollfdR) ∈ exchanged := by simp [exchanged]
example : Spec.pollfdR.At (Mem.object 16 [5, 0, 0, 0, 1, 0, 0x11, 0]) 16 exVal := by
  intro s hs
  have : s = ⟨[.f "fd"], 0, 4⟩ ∨ s = ⟨[.f "events"], 4, 2⟩ ∨ s = ⟨[.f "revents"], 6, 2⟩ := by
    simpa [Spec.pollfdR, Spec.it] using hs
  rcases this with rfl | rfl | rfl <;> decide +kernel
example : getMember Decl.pollfd 16 [.f "revents"] (Mem.object 16 [5, 0, 0, 0, 1, 0, 0x11, 0]) = .ok 0x11 := by decide +kernel
example : Spec.statR.slots.length = 20 ∧ Spec.utsnameR.slots.length = 390 := by decide +kernel
example : Decl.siginfo.WF ∧ Decl.siginfo.Plain := by
  simp [Decl.siginfo, Decl.fields, CDecl.WF, CFields.WF, CDecl.Plain, CFields.Plain]
example : Decl.rtentry.NoUnion := by simp [Decl.rtentry, Decl.sockaddr, Decl.fields, CDecl.NoUnion, CFields.NoUnion]
example : asks .reg 0o100644#32 = true ∧ asks .dir 0o100644#32 = false ∧ asks .dir 0o40755#32 = true := by decide +kernel

/-- The record of the example; `revents` is read, then `fd` and `events` are assigned. -/
theorem exVal_at : Spec.pollfdR.At (Mem.object 16 [5, 0, 0, 0, 1, 0, 0x11, 0]) 16 exVal := by
  intro s hs
  have : s = ⟨[.f "fd"], 0, 4⟩ ∨ s = ⟨[.f "events"], 4, 2⟩ ∨ s = ⟨[.f "revents"], 6, 2⟩ := by
    simpa [Spec.pollfdR, Spec.it] using hs
  rcases this with rfl | rfl | rfl <;> decide +kernel

example : getMember Decl.pollfd 16 [.f "revents"] (Mem.object 16 [5, 0, 0, 0, 1, 0, 0x11, 0]) = .ok 0x11 :=
  C100_read (d := Decl.pollfd) (r := Spec.pollfdR) (by simp [exchanged]) _ 16 exVal exVal_at (s := ⟨[.f "revents"], 6, 2⟩)
    (by simp [Spec.pollfdR, Spec.it])

example : ∃ m', setMembers Decl.pollfd 16 [([.f "fd"], 9), ([.f "events"], 4)] (Mem.object 16 [5, 0, 0, 0, 1, 0, 0x11, 0]) = .ok m' ∧
    Spec.pollfdR.At m' 16 (Spec.assigned exVal [([.f "fd"], 9), ([.f "events"], 4)]) := by
  obtain ⟨m', h1, h2, -⟩ := C100_write (d := Decl.pollfd) (r := Spec.pollfdR) (by simp [exchanged]) _ 16 exVal exVal_at
    [([.f "fd"], 9), ([.f "events"], 4)] (by
      intro a ha
      simp only [List.mem_cons, List.not_mem_nil, or_false] at ha
      rcases ha with rfl | rfl
      · exact ⟨⟨[.f "fd"], 0, 4⟩, by simp [Spec.pollfdR, Spec.it], rfl⟩
      · exact ⟨⟨[.f "events"], 4, 2⟩, by simp [Spec.pollfdR, Spec.it], rfl⟩)
  exact ⟨m', h1, h2⟩

example : Spec.pollfdR.size ≤ Decl.pollfd.sizeof ∧ Decl.pollfd.sizeof = Spec.pollfdR.size :=
  ⟨C100_room (by simp [exchanged]), C100_sizes_partial (by simp [exchanged]) (by decide +kernel)⟩

/-- C100: the first byte 0x45 of an IP header, and its version set to 6. -/
example : getMember Decl.iphdr 16 [.f "version"] (Mem.object 16 [0x45]) = .ok 4 ∧
    setMember Decl.iphdr 16 [.f "version"] 6 (Mem.object 16 [0x45]) = .ok ((Mem.object 16 [0x45]).upd 16 0x65) :=
  ⟨((C100_nibbles _ 16 0x45).1 (by decide)).1, (C100_nibbles_set _ 16 0x45 6 (by decide)).1⟩

example : ∀ l ∈ Decl.siginfo.leaves [] 0, l.off + l.width ≤ Decl.siginfo.size ∧ l.width ∣ l.off := by
  have h := C100_layout Decl.siginfo (by simp [Decl.siginfo, Decl.fields, CDecl.WF, CFields.WF])
  exact fun l hl => ⟨h.1 l hl, h.2.2.1 (by simp [Decl.siginfo, Decl.fields, CDecl.Plain, CFields.Plain]) l hl⟩

example : ∀ k, asks k 0o100644#32 = true → k = .reg := fun k hk => C100_one_kind k .reg _ hk (by decide +kernel)

/-- C100: a request that reads 4 bytes, of type `T` and number 3. -/
example : (ioc 2#32 84#32 3#32 4#64).toNat = Spec.request 2 4 84 3 ∧
    ∀ n : BitVec 32, n.toNat < 256 → ioc 2#32 84#32 3#32 4#64 = ioc 2#32 84#32 n 4#64 → n = 3#32 :=
  ⟨C100_ioc 2#32 84#32 3#32 4#64 (by decide) (by decide) (by decide) (by decide),
   fun n hn h => (C100_ioc_injective _ _ _ _ _ _ _ _ (by decide) (by decide) (by decide) (by decide) (by decide) (by decide) hn
     (by decide) h).2.2.1.symm⟩

end Minilib

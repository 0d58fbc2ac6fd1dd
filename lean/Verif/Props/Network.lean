import Verif.Model.Network
import Verif.Lemmas.Atoi
import Verif.Lemmas.Conv
/-
C30 byte order, C31 IPv4 text, C61 rejection of malformed addresses, C62 ether_ntoa, C63 gethostname.
-/

set_option autoImplicit false

namespace Minilib
open Mem Spec

/-! ### C30 -/

theorem xor3 (x y : Byte) : x ^^^ y ^^^ (y ^^^ (x ^^^ y)) = y ∧ y ^^^ (x ^^^ y) = x := by
  have h2 : y ^^^ (x ^^^ y) = x := by
    rw [BitVec.xor_comm x y, ← BitVec.xor_assoc, BitVec.xor_self, BitVec.zero_xor]
  refine ⟨?_, h2⟩
  rw [h2, BitVec.xor_comm x y, BitVec.xor_assoc, BitVec.xor_self, BitVec.xor_zero]

/-- C30: in memory the bytes of `htonl(i)` are those of `i` in reverse order. -/
theorem C30_htonl (i : BitVec 32) : wordBytes (htonl i) = (wordBytes i).reverse := by
  unfold htonl
  simp only [wordBytes]
  rw [(xor3 _ _).1, (xor3 _ _).1, (xor3 _ _).2, (xor3 _ _).2]
  simp only [bytesWord]
  rw [← wordBytes, wordBytes_append]
  rfl

/-- C30: stored at `a`, `htonl(i)` is the big-endian (network order) representation of `i`: the byte
at `a + k` is byte `3 - k` of the number. -/
theorem C30_htonl_network_order (i : BitVec 32) (m : Mem) (a : Nat) (h : m.HasW a (htonl i)) :
    ∀ k, k < 4 → m (a + k) = some (BitVec.ofNat 8 (i.toNat / 256 ^ (3 - k))) := by
  intro k hk
  unfold HasW at h
  rw [C30_htonl] at h
  have e := h k (by simpa using hk)
  rw [e]
  congr 1
  match k, hk with
  | 0, _ | 1, _ | 2, _ | 3, _ =>
    simp [wordBytes, ← BitVec.toNat_inj, BitVec.extractLsb'_toNat, Nat.shiftRight_eq_div_pow]

/-- C30: htonl is an involution and ntohl its inverse. -/
theorem C30_ntohl_htonl (i : BitVec 32) : ntohl (htonl i) = i ∧ htonl (ntohl i) = i := by
  have : htonl (htonl i) = i := by
    apply wordBytes_inj
    rw [C30_htonl, C30_htonl, List.reverse_reverse]
  exact ⟨this, this⟩

/-- C30: htons exchanges the two bytes. -/
theorem C30_htons (i : BitVec 16) :
    (htons i).toNat = i.toNat % 256 * 256 + i.toNat / 256 := by
  unfold htons
  dsimp only
  rw [(xor3 _ _).1, (xor3 _ _).2]
  rw [BitVec.toNat_append]
  simp only [BitVec.extractLsb'_toNat, Nat.shiftRight_eq_div_pow]
  have hlt := i.isLt
  rw [← Nat.shiftLeft_add_eq_or_of_lt (by omega), Nat.shiftLeft_eq]
  omega

/-- C30: htons is an involution and ntohs its inverse. -/
theorem C30_ntohs_htons (i : BitVec 16) : ntohs (htons i) = i ∧ htons (ntohs i) = i := by
  have : htons (htons i) = i := by
    rw [← BitVec.toNat_inj, C30_htons, C30_htons]
    have := i.isLt
    omega
  exact ⟨this, this⟩

example : htonl 0x01020304#32 = 0x04030201#32 ∧ htons 0x1234#16 = 0x3412#16 := by decide

/-! ### C31 -/

/-- The dotted quad of four numbers. -/
def _root_.Spec.dottedQuad (a b c d : Nat) : List Byte :=
  numeral 10 a ++ [46#8] ++ numeral 10 b ++ [46#8] ++ numeral 10 c ++ [46#8] ++ numeral 10 d

theorem numeral_byte {n : Nat} (h : n < 256) : numeral 10 n =
    (if n > 99 then [BitVec.ofNat 8 (48 + n / 100)] else []) ++
    (if n > 9 then [BitVec.ofNat 8 (48 + n / 10 % 10)] else []) ++ [BitVec.ofNat 8 (48 + n % 10)] := by
  have hd : ∀ d, d < 10 → digitChar false d = BitVec.ofNat 8 (48 + d) := fun d => digitChar_lt
  unfold numeral
  rw [digitsOf]
  by_cases h1 : n > 9
  · rw [dif_neg (by omega), digitsOf]
    by_cases h2 : n > 99
    · rw [dif_neg (by omega), digitsOf, dif_pos (by omega)]
      simp only [h1, h2, if_true, List.map_append, List.map_cons, List.map_nil]
      rw [hd _ (by omega), hd _ (by omega), hd _ (by omega), Nat.div_div_eq_div_mul]
    · rw [dif_pos (by omega)]
      simp only [h1, h2, if_true, if_false, List.map_append, List.map_cons, List.map_nil]
      rw [hd _ (by omega), hd _ (by omega), show n / 10 % 10 = n / 10 by omega]
      simp
  · rw [dif_pos (by omega)]
    simp only [h1, if_false, show ¬ n > 99 by omega, List.map_cons, List.map_nil]
    rw [hd _ (by omega), show n % 10 = n by omega]
    simp

theorem ntoaTens_spec : ∀ (k : Nat) {m : Mem} {p : Nat} {c b : Byte}, c.toNat / 10 = k → m p = some b →
    ntoaTens m p c = .ok (m.upd p (b + BitVec.ofNat 8 k), BitVec.ofNat 8 (c.toNat % 10)) := by
  intro k
  induction k with
  | zero =>
    intro m p c b hk hb
    rw [ntoaTens, if_neg (by omega)]
    have : m.upd p (b + 0#8) = m := by
      funext x; unfold Mem.upd; split
      · subst_vars; rw [hb]; simp
      · rfl
    rw [this, Nat.mod_eq_of_lt (by omega), BitVec.ofNat_toNat, BitVec.setWidth_eq]
    rfl
  | succ k ih =>
    intro m p c b hk hb
    have hsub : (c - 10#8).toNat = c.toNat - 10 := by
      have := c.isLt
      rw [BitVec.toNat_sub_of_le (by simp [BitVec.le_def]; omega)]; rfl
    rw [ntoaTens, if_pos (by omega), load_some hb]
    simp only [Res.ok_bind]
    rw [store_some hb]
    simp only [Res.ok_bind]
    rw [ih (b := b + 1#8) (by omega) (by simp)]
    rw [show (c - 10#8).toNat % 10 = c.toNat % 10 by omega]
    congr 2
    funext x
    unfold Mem.upd
    split
    · congr 1
      rw [show BitVec.ofNat 8 (k + 1) = 1#8 + BitVec.ofNat 8 k by rw [BitVec.ofNat_add, BitVec.add_comm],
        BitVec.add_assoc]
    · rfl

theorem ntoaLead_spec {m : Mem} {p : Nat} {c : Byte} (hm : m.Mapped p 2) :
    ∃ l, l.length ≤ 2 ∧ l ++ [BitVec.ofNat 8 (48 + c.toNat % 10)] = numeral 10 c.toNat ∧
      ntoaLead m p c = .ok (m.write p l, p + l.length, BitVec.ofNat 8 (c.toNat % 10)) := by
  have hc := c.isLt
  rw [numeral_byte hc]
  unfold ntoaLead
  by_cases h1 : c.toNat > 9
  · rw [if_pos h1]
    simp only [if_pos h1]
    by_cases h2 : c.toNat > 99
    · simp only [if_pos h2]
      refine ⟨[BitVec.ofNat 8 (48 + c.toNat / 100), BitVec.ofNat 8 (48 + c.toNat / 10 % 10)], by simp, by simp, ?_⟩
      have hh : ∃ v : Byte, ntoaHundreds m p c = .ok (m.upd p (BitVec.ofNat 8 (48 + c.toNat / 100)), p + 1, v) ∧
          v.toNat = c.toNat % 100 := by
        obtain ⟨e1, e2⟩ := store_step hm (BitVec.ofNat 8 (48 + c.toNat / 100))
        unfold ntoaHundreds
        by_cases h3 : c.toNat > 199
        · rw [show c.toNat / 100 = 2 by omega] at *
          rw [if_pos h3, show (50#8 : Byte) = BitVec.ofNat 8 (48 + 2) by rfl, e1]
          refine ⟨c - 200#8, rfl, ?_⟩
          rw [BitVec.toNat_sub_of_le (by simp [BitVec.le_def]; omega)]
          simp; omega
        · rw [show c.toNat / 100 = 1 by omega] at *
          rw [if_neg h3, if_pos h2, show (49#8 : Byte) = BitVec.ofNat 8 (48 + 1) by rfl, e1]
          refine ⟨c - 100#8, rfl, ?_⟩
          rw [BitVec.toNat_sub_of_le (by simp [BitVec.le_def]; omega)]
          simp; omega
      obtain ⟨v, e, hv⟩ := hh
      rw [e]
      simp only [Res.ok_bind]
      have h2' := (store_step hm (BitVec.ofNat 8 (48 + c.toNat / 100))).2
      rw [(store_step h2' 48#8).1]
      simp only [Res.ok_bind]
      rw [ntoaTens_spec (v.toNat / 10) rfl (upd_same _ _ _)]
      simp only [Res.ok_bind]
      rw [hv, show c.toNat % 100 / 10 = c.toNat / 10 % 10 by omega,
        show c.toNat % 100 % 10 = c.toNat % 10 by omega]
      simp only [List.length_cons, List.length_nil]
      rw [write_cons, write_singleton, BitVec.ofNat_add 48 (c.toNat / 10 % 10)]
      have : ∀ (m : Mem) (p : Nat) (a b : Byte), (m.upd p a).upd p b = m.upd p b := by
        intro m p a b; funext x; unfold Mem.upd; split <;> rfl
      rw [this]; rfl
    · simp only [if_neg h2]
      refine ⟨[BitVec.ofNat 8 (48 + c.toNat / 10 % 10)], by simp, by simp, ?_⟩
      have e : ntoaHundreds m p c = .ok (m, p, c) := by
        unfold ntoaHundreds; rw [if_neg (by omega), if_neg h2]; rfl
      rw [e]
      simp only [Res.ok_bind]
      rw [(store_step hm 48#8).1]
      simp only [Res.ok_bind]
      rw [ntoaTens_spec (c.toNat / 10) rfl (upd_same _ _ _)]
      simp only [Res.ok_bind]
      rw [show c.toNat / 10 % 10 = c.toNat / 10 by omega]
      simp only [List.length_cons, List.length_nil]
      rw [write_singleton, BitVec.ofNat_add]
      have : ∀ (m : Mem) (p : Nat) (a b : Byte), (m.upd p a).upd p b = m.upd p b := by
        intro m p a b; funext x; unfold Mem.upd; split <;> rfl
      rw [this]; rfl
  · rw [if_neg h1]
    simp only [if_neg h1, if_neg (show ¬ c.toNat > 99 by omega)]
    refine ⟨[], by simp, by simp, ?_⟩
    rw [Nat.mod_eq_of_lt (by omega), BitVec.ofNat_toNat]
    simp

/-- The text written by the loop: every octet followed by a dot. -/
def octetsText (cs : List Byte) : List Byte := cs.flatMap fun c => numeral 10 c.toNat ++ [46#8]

theorem ntoaLoop_spec : ∀ (cs : List Byte) {m : Mem} {p : Nat}, m.Mapped p (4 * cs.length) →
    ntoaLoop m p cs = .ok (m.write p (octetsText cs), p + (octetsText cs).length) := by
  intro cs
  induction cs with
  | nil => intro m p _; simp [ntoaLoop, octetsText]
  | cons c cs ih =>
    intro m p hm
    rw [List.length_cons] at hm
    obtain ⟨l, hl, hn, e⟩ := ntoaLead_spec (c := c) (hm.mono (k := 2) (by omega))
    rw [ntoaLoop, e]
    simp only [Res.ok_bind]
    have hm1 : (m.write p l).Mapped (p + l.length) (4 * cs.length + 2) := by
      intro i hi
      have := (hm.write p l) (l.length + i) (by omega)
      rwa [← Nat.add_assoc] at this
    obtain ⟨e1, hm2⟩ := store_step (n := 4 * cs.length + 1) hm1 (48#8 + BitVec.ofNat 8 (c.toNat % 10))
    rw [e1]
    simp only [Res.ok_bind]
    obtain ⟨e2, hm3⟩ := store_step (n := 4 * cs.length) hm2 46#8
    rw [e2]
    simp only [Res.ok_bind]
    rw [ih hm3]
    have hn' : octetsText (c :: cs) = l ++ (48#8 + BitVec.ofNat 8 (c.toNat % 10)) :: 46#8 :: octetsText cs := by
      unfold octetsText
      rw [List.flatMap_cons, ← hn, BitVec.ofNat_add]
      simp
    rw [hn', write_append, write_cons, write_cons]
    simp only [List.length_append, List.length_cons]
    congr 2
    omega

theorem octetsText_length (cs : List Byte) : (octetsText cs).length ≤ 4 * cs.length ∧
    2 * cs.length ≤ (octetsText cs).length := by
  induction cs with
  | nil => simp [octetsText]
  | cons c cs ih =>
    have : octetsText (c :: cs) = numeral 10 c.toNat ++ 46#8 :: octetsText cs := by
      unfold octetsText; simp
    rw [this, numeral_byte c.isLt]
    simp only [List.length_append, List.length_cons, List.length_nil]
    split <;> split <;> simp <;> omega

theorem octetsText_quad (a b c d : Byte) : octetsText [a, b, c, d]
    = dottedQuad a.toNat b.toNat c.toNat d.toNat ++ [46#8] := by
  simp [octetsText, dottedQuad]

/-- C31: for every address, inet_ntoa writes its dotted quad and a NUL, inside the 16 bytes of its
buffer, and nothing else. -/
theorem C31_inet_ntoa (m : Mem) (buf : Nat) (a b c d : Byte) (hm : m.Mapped buf 16) :
    inet_ntoa m buf (bytesWord [a, b, c, d])
      = .ok (m.write buf (dottedQuad a.toNat b.toNat c.toNat d.toNat ++ [0#8]), buf) ∧
    (dottedQuad a.toNat b.toNat c.toNat d.toNat ++ [0#8]).length ≤ 16 := by
  have hl := octetsText_length [a, b, c, d]
  rw [octetsText_quad] at hl
  simp only [List.length_append, List.length_cons, List.length_nil] at hl ⊢
  refine ⟨?_, by omega⟩
  unfold inet_ntoa
  rw [show wordBytes (bytesWord [a, b, c, d]) = [a, b, c, d] from wordBytes_append a b c d,
    ntoaLoop_spec _ (by simpa using hm)]
  simp only [Res.ok_bind]
  rw [octetsText_quad]
  simp only [List.length_append, List.length_cons, List.length_nil]
  set t := dottedQuad a.toNat b.toNat c.toNat d.toNat
  rw [show buf + (t.length + (0 + 1)) - 1 = buf + t.length by omega]
  obtain ⟨x, hx⟩ := (hm.write buf (t ++ [46#8])) t.length (by omega)
  rw [store_some hx]
  simp only [Res.ok_bind]
  rw [write_append, write_append, write_singleton, write_singleton]
  have : ∀ (m : Mem) (p : Nat) (a b : Byte), (m.upd p a).upd p b = m.upd p b := by
    intro m p a b; funext x; unfold Mem.upd; split <;> rfl
  rw [this]; rfl

theorem atonDigits_spec {m : Mem} {c : Byte} (hc : ¬ (48 ≤ c.toInt ∧ c.toInt ≤ 57)) :
    ∀ (ds : List Nat) {pc : Nat} {v : Byte}, (∀ d ∈ ds, d < 10) → m.Holds pc (dtxt ds ++ [c]) →
      atonDigits m pc v
        = .ok (pc + ds.length, BitVec.ofNat 8 (ds.foldl (fun a d => a * 10 + d) v.toNat)) := by
  intro ds
  induction ds with
  | nil =>
    intro pc v _ h
    rw [dtxt_nil, List.nil_append, holds_cons] at h
    rw [atonDigits, load_some h.1]
    simp only [Res.ok_bind, if_neg hc]
    simp
  | cons d ds ih =>
    intro pc v hd h
    rw [dtxt_cons, List.cons_append, holds_cons] at h
    have hd0 : d < 10 := hd d (by simp)
    rw [atonDigits, load_some h.1]
    simp only [Res.ok_bind]
    rw [if_pos (by rw [digitChar_toInt hd0]; omega), ih (fun x hx => hd x (by simp [hx])) h.2]
    congr 2
    · simp only [List.length_cons]; omega
    · simp only [List.foldl_cons]
      have hgen : ∀ (l : List Nat) (x y : Nat), x % 256 = y % 256 →
          l.foldl (fun a d => a * 10 + d) x % 256 = l.foldl (fun a d => a * 10 + d) y % 256 := by
        intro l
        induction l with
        | nil => intro x y h; exact h
        | cons e l ih => intro x y h; simp only [List.foldl_cons]; apply ih; omega
      rw [← BitVec.toNat_inj, BitVec.toNat_ofNat, BitVec.toNat_ofNat]
      apply hgen
      rw [digitChar_lt hd0]
      have : (v * 10#8 + (BitVec.ofNat 8 (48 + d) - 48#8)).toNat = (v.toNat * 10 + d) % 256 := by
        rw [BitVec.ofNat_add, BitVec.add_comm (BitVec.ofNat 8 48), BitVec.add_sub_cancel]
        simp [BitVec.toNat_add, BitVec.toNat_mul]
      rw [this]; omega

/-- Numbers written with dots between them. -/
def _root_.Spec.dotted : List (List Nat) → List Byte
  | [] => []
  | [d] => dtxt d
  | d :: e :: r => dtxt d ++ 46#8 :: dotted (e :: r)

/-- The bytes of an address given by up to four numbers: the last number is the last byte, missing
ones in between are 0. -/
def _root_.Spec.octets : List Nat → List Byte
  | [a] => [0#8, 0#8, 0#8, BitVec.ofNat 8 a]
  | [a, b] => [BitVec.ofNat 8 a, 0#8, 0#8, BitVec.ofNat 8 b]
  | [a, b, c] => [BitVec.ofNat 8 a, BitVec.ofNat 8 b, 0#8, BitVec.ofNat 8 c]
  | [a, b, c, d] => [BitVec.ofNat 8 a, BitVec.ofNat 8 b, BitVec.ofNat 8 c, BitVec.ofNat 8 d]
  | _ => []

theorem atonLoop_last {m : Mem} {k pc p : Nat} {u : List Byte} {ds : List Nat} (hd : ∀ d ∈ ds, d < 10)
    (hp : p < u.length) (hu : u.getD p 0#8 = 0#8) (h : m.Holds pc (dtxt ds ++ [0#8])) :
    atonLoop m (k + 1) pc p u = .ok (p, u.set p (BitVec.ofNat 8 (valueOf 10 ds))) := by
  rw [atonLoop, hu, atonDigits_spec (by decide) ds hd h]
  simp only [Res.ok_bind, setOctet, if_pos hp]
  rw [holds_append, holds_cons] at h
  rw [load_some (by simpa using h.2.1)]
  simp only [Res.ok_bind, if_true]
  rfl

theorem atonLoop_dot {m : Mem} {k pc p : Nat} {u : List Byte} {ds : List Nat} {r : List Byte}
    (hd : ∀ d ∈ ds, d < 10)
    (hp : p < u.length) (hu : u.getD p 0#8 = 0#8) (h : m.Holds pc (dtxt ds ++ 46#8 :: r)) :
    atonLoop m (k + 1) pc p u
      = atonLoop m k (pc + ds.length + 1) (p + 1) (u.set p (BitVec.ofNat 8 (valueOf 10 ds))) ∧
    m.Holds (pc + ds.length + 1) r := by
  have h' : m.Holds pc (dtxt ds ++ [46#8]) ∧ m.Holds (pc + ds.length + 1) r := by
    rw [holds_append, holds_cons] at h
    refine ⟨?_, by simpa using h.2.2⟩
    rw [holds_append, holds_cons]
    exact ⟨h.1, h.2.1, holds_nil _ _⟩
  refine ⟨?_, h'.2⟩
  rw [atonLoop, hu, atonDigits_spec (by decide) ds hd h'.1]
  simp only [Res.ok_bind, setOctet, if_pos hp]
  rw [holds_append, holds_cons] at h
  rw [load_some (by simpa using h.2.1)]
  simp only [Res.ok_bind]
  rw [if_neg (by decide)]
  rfl

/-- C31: inet_aton of one to four decimal numbers separated by dots (any number of digits, values
taken modulo 256) stores exactly the four bytes of the address. -/
theorem C31_inet_aton (m : Mem) (s addr : Nat) (ns : List (List Nat)) (hn : ∀ ds ∈ ns, ∀ d ∈ ds, d < 10)
    (h1 : 1 ≤ ns.length) (h4 : ns.length ≤ 4) (hs : m.IsStr s (dotted ns)) (hm : m.Mapped addr 4) :
    inet_aton m s addr = .ok (m.write addr (octets (ns.map (valueOf 10))), 1) := by
  have hh : m.Holds s (dotted ns ++ [0#8]) := (isStr_iff.1 hs).1
  have fin : ∀ (r : Nat × List Byte), atonLoop m 4 s 0 [0#8, 0#8, 0#8, 0#8] = .ok r →
      atonShort r.1 r.2 = .ok (octets (ns.map (valueOf 10))) →
      (octets (ns.map (valueOf 10))).length = 4 →
      inet_aton m s addr = .ok (m.write addr (octets (ns.map (valueOf 10))), 1) := by
    intro r e1 e2 e3
    unfold inet_aton
    rw [e1]
    simp only [Res.ok_bind]
    rw [e2]
    simp only [Res.ok_bind]
    rw [Mem.storeBytes_mapped (by rw [e3]; exact hm)]
    rfl
  match ns, h1, h4 with
  | [a], _, _ =>
    exact fin _ (atonLoop_last (hn a (by simp)) (by simp) rfl hh) rfl rfl
  | [a, b], _, _ =>
    rw [dotted, List.append_assoc, List.cons_append] at hh
    obtain ⟨e1, h1⟩ := @atonLoop_dot m 3 s 0 [0#8, 0#8, 0#8, 0#8] a _ (hn a (by simp)) (by simp) rfl hh
    exact fin _ (e1.trans (atonLoop_last (hn b (by simp)) (by simp) rfl h1)) rfl rfl
  | [a, b, c], _, _ =>
    rw [dotted, dotted, List.append_assoc, List.cons_append, List.append_assoc, List.cons_append] at hh
    obtain ⟨e1, h1⟩ := @atonLoop_dot m 3 s 0 [0#8, 0#8, 0#8, 0#8] a _ (hn a (by simp)) (by simp) rfl hh
    obtain ⟨e2, h2⟩ := @atonLoop_dot m 2 _ 1 ([0#8, 0#8, 0#8, 0#8].set 0 (BitVec.ofNat 8 (valueOf 10 a))) b _ (hn b (by simp)) (by simp) rfl h1
    exact fin _ (e1.trans (e2.trans (atonLoop_last (hn c (by simp)) (by simp) rfl h2))) rfl rfl
  | [a, b, c, d], _, _ =>
    rw [dotted, dotted, dotted, List.append_assoc, List.cons_append, List.append_assoc, List.cons_append,
      List.append_assoc, List.cons_append] at hh
    obtain ⟨e1, h1⟩ := @atonLoop_dot m 3 s 0 [0#8, 0#8, 0#8, 0#8] a _ (hn a (by simp)) (by simp) rfl hh
    obtain ⟨e2, h2⟩ := @atonLoop_dot m 2 _ 1 ([0#8, 0#8, 0#8, 0#8].set 0 (BitVec.ofNat 8 (valueOf 10 a))) b _ (hn b (by simp)) (by simp) rfl h1
    obtain ⟨e3, h3⟩ := @atonLoop_dot m 1 _ 2 (([0#8, 0#8, 0#8, 0#8].set 0 (BitVec.ofNat 8 (valueOf 10 a))).set 1
      (BitVec.ofNat 8 (valueOf 10 b))) c _ (hn c (by simp)) (by simp) rfl h2
    exact fin _ (e1.trans (e2.trans (e3.trans (atonLoop_last (hn d (by simp)) (by simp) rfl h3)))) rfl rfl

theorem dotted_quad (a b c d : Nat) :
    dottedQuad a b c d = dotted [digitsOf 10 a, digitsOf 10 b, digitsOf 10 c, digitsOf 10 d] := by
  simp [dotted, dottedQuad, numeral_eq]

/-- C31, the round trip: for every address, inet_aton applied to the text inet_ntoa has produced
stores the address again. -/
theorem C31_round_trip (m : Mem) (buf addr : Nat) (a b c d : Byte) (hm : m.Mapped buf 16)
    (ha : m.Mapped addr 4) :
    ∃ m1, inet_ntoa m buf (bytesWord [a, b, c, d]) = .ok (m1, buf) ∧
      inet_aton m1 buf addr = .ok (m1.write addr [a, b, c, d], 1) := by
  obtain ⟨e, _⟩ := C31_inet_ntoa m buf a b c d hm
  refine ⟨_, e, ?_⟩
  have hdig : ∀ ds ∈ [digitsOf 10 a.toNat, digitsOf 10 b.toNat, digitsOf 10 c.toNat, digitsOf 10 d.toNat],
      ∀ x ∈ ds, x < 10 := by
    intro ds hds
    simp only [List.mem_cons, List.not_mem_nil, or_false] at hds
    rcases hds with rfl | rfl | rfl | rfl <;> exact digitsOf_lt (by omega)
  have hnz : ∀ x ∈ dottedQuad a.toNat b.toNat c.toNat d.toNat, x ≠ 0#8 := by
    have hz : ∀ n, ∀ x ∈ numeral 10 n, x ≠ 0#8 := fun n => dtxt_ne_zero (digitsOf_lt (by omega))
    intro x hx
    simp only [dottedQuad, List.mem_append, List.mem_cons, List.not_mem_nil, or_false] at hx
    rcases hx with (((((h | rfl) | h) | rfl) | h) | rfl) | h <;> first | exact hz _ _ h | decide
  have := C31_inet_aton (m.write buf (dottedQuad a.toNat b.toNat c.toNat d.toNat ++ [0#8])) buf addr
    _ hdig (by simp) (by simp)
    (by rw [← dotted_quad]; exact isStr_iff.2 ⟨write_holds _ _ _, hnz⟩) (ha.write _ _)
  rw [this]
  simp [valueOf_digitsOf, octets]

example : (inet_ntoa (Mem.object 100 (List.replicate 16 9#8)) 100 (bytesWord [10#8, 0#8, 213#8, 255#8]))
    = .ok ((Mem.object 100 (List.replicate 16 9#8)).write 100
        (dottedQuad 10 0 213 255 ++ [0#8]), 100) :=
  (C31_inet_ntoa _ 100 10#8 0#8 213#8 255#8 (by decide)).1

example : inet_aton (Mem.object 100 [49#8, 48#8, 46#8, 55#8, 0#8, 1#8, 1#8, 1#8, 1#8]) 100 105
    = .ok ((Mem.object 100 [49#8, 48#8, 46#8, 55#8, 0#8, 1#8, 1#8, 1#8, 1#8]).write 105
        [10#8, 0#8, 0#8, 7#8], 1) :=
  C31_inet_aton _ 100 105 [[1, 0], [7]] (by decide) (by decide) (by decide) (by decide) (by decide)

/-! ### C61: malformed addresses -/

theorem atonDigits_total {m : Mem} : ∀ (s : List Byte) {pc : Nat} (v : Byte), m.IsStr pc s →
    ∃ k v', k ≤ s.length ∧ atonDigits m pc v = .ok (pc + k, v') ∧ m.IsStr (pc + k) (s.drop k) := by
  intro s
  induction s with
  | nil =>
    intro pc v h
    rw [isStr_nil] at h
    refine ⟨0, v, by simp, ?_, by simpa [isStr_nil] using h⟩
    rw [atonDigits, load_some h]
    simp only [Res.ok_bind]
    rw [if_neg (by decide)]; rfl
  | cons b s ih =>
    intro pc v h
    have h0 := h
    rw [isStr_cons] at h
    rw [atonDigits, load_some h.1]
    simp only [Res.ok_bind]
    by_cases hb : 48 ≤ b.toInt ∧ b.toInt ≤ 57
    · rw [if_pos hb]
      obtain ⟨k, v', hk, e, hs⟩ := ih (v * 10#8 + (b - 48#8)) h.2.2
      refine ⟨k + 1, v', by simp; omega, ?_, ?_⟩
      · rw [e]; congr 2; omega
      · rw [List.drop_succ_cons, show pc + (k + 1) = pc + 1 + k by omega]; exact hs
    · rw [if_neg hb]
      exact ⟨0, v, by simp, rfl, h0⟩

theorem atonLoop_total {m : Mem} : ∀ (k : Nat) {pc p : Nat} {u : List Byte} {s : List Byte},
    m.IsStr pc s → u.length = 4 → p + k ≤ 4 →
    ∃ p' u', u'.length = 4 ∧ atonLoop m k pc p u = .ok (p', u') := by
  intro k
  induction k with
  | zero => intro pc p u s _ hu _; exact ⟨p, u, hu, rfl⟩
  | succ k ih =>
    intro pc p u s hs hu hp
    obtain ⟨n, v, hn, e, hs'⟩ := atonDigits_total s (u.getD p 0#8) hs
    rw [atonLoop, e]
    simp only [Res.ok_bind, setOctet, if_pos (show p < u.length by omega)]
    cases hd : s.drop n with
    | nil =>
      rw [hd, isStr_nil] at hs'
      rw [load_some hs']
      simp only [Res.ok_bind, if_true]
      exact ⟨p, _, by simp [hu], rfl⟩
    | cons b t =>
      rw [hd, isStr_cons] at hs'
      rw [load_some hs'.1]
      simp only [Res.ok_bind]
      rw [if_neg hs'.2.1]
      exact ih hs'.2.2 (by simp [hu]) (by omega)

/-- C31: on every string inet_aton terminates, reads only the string and writes only the four bytes of
the address, and returns 1. -/
theorem C31_inet_aton_total (m : Mem) (s addr : Nat) (t : List Byte) (hs : m.IsStr s t)
    (hm : m.Mapped addr 4) :
    ∃ u, u.length = 4 ∧ inet_aton m s addr = .ok (m.write addr u, 1) := by
  obtain ⟨p, u, hu, e⟩ := @atonLoop_total m 4 s 0 [0#8, 0#8, 0#8, 0#8] t hs rfl (by omega)
  have h2 : ∃ u', u'.length = 4 ∧ atonShort p u = .ok u' := by
    unfold atonShort
    by_cases hp : p < 3
    · rw [if_pos hp]
      simp only [setOctet, hu, List.length_set]
      rw [if_pos (by omega)]
      simp only [Res.ok_bind, List.length_set, hu]
      rw [if_pos (by omega)]
      exact ⟨_, by simp [hu], rfl⟩
    · rw [if_neg hp]; exact ⟨u, hu, rfl⟩
  obtain ⟨u', hu', e'⟩ := h2
  refine ⟨u', hu', ?_⟩
  unfold inet_aton
  rw [e]
  simp only [Res.ok_bind]
  rw [e']
  simp only [Res.ok_bind]
  rw [Mem.storeBytes_mapped (by rw [hu']; exact hm)]
  rfl

/-- An address in the usual notation with four numbers. -/
def ValidQuad (t : List Byte) : Prop := ∃ a b c d, a < 256 ∧ b < 256 ∧ c < 256 ∧ d < 256 ∧
  t = dottedQuad a b c d

/-- C61: text with a character that is neither a digit nor a dot is rejected with 0. -/
def C61_inet_aton_full : Prop :=
  ∀ (m : Mem) (s addr : Nat) (t : List Byte), m.IsStr s t → m.Mapped addr 4 →
    (∃ b ∈ t, b ≠ 46#8 ∧ ¬ (48 ≤ b.toNat ∧ b.toNat ≤ 57)) →
    ∃ m', inet_aton m s addr = .ok (m', 0)

/-- C61 fails: "x" is accepted. -/
theorem C61_inet_aton_refuted : ¬ C61_inet_aton_full := by
  intro h
  obtain ⟨m', e⟩ := h (Mem.object 100 [120#8, 0#8, 1#8, 1#8, 1#8, 1#8]) 100 102 [120#8] (by decide)
    (by decide) ⟨120#8, by decide⟩
  obtain ⟨u, _, e'⟩ := C31_inet_aton_total (Mem.object 100 [120#8, 0#8, 1#8, 1#8, 1#8, 1#8]) 100 102
    [120#8] (by decide) (by decide)
  rw [e'] at e
  simp at e

/-- C61: well-formed addresses are accepted. -/
theorem C61_inet_aton_partial (m : Mem) (s addr : Nat) (t : List Byte) (hs : m.IsStr s t)
    (hm : m.Mapped addr 4) (_ : ValidQuad t) : ∃ m', inet_aton m s addr = .ok (m', 1) := by
  obtain ⟨u, _, e⟩ := C31_inet_aton_total m s addr t hs hm
  exact ⟨_, e⟩

/-! ### C62 ether_ntoa -/

/-- Two hexadecimal digits, most significant first. -/
def _root_.Spec.hexPair (o : Byte) : List Byte := [digitChar false (o.toNat / 16), digitChar false (o.toNat % 16)]

/-- The two digits in the wrong order. -/
def hexPairSwapped (o : Byte) : List Byte := [digitChar false (o.toNat % 16), digitChar false (o.toNat / 16)]

/-- Six groups separated by colons. -/
def _root_.Spec.colons : List (List Byte) → List Byte
  | [] => []
  | [x] => x
  | x :: y :: r => x ++ 58#8 :: colons (y :: r)

/-- C62: the usual notation of a hardware address. -/
def C62_ether_ntoa_full : Prop :=
  ∀ (m : Mem) (buf : Nat) (e : List Byte), e.length = 6 → m.Mapped buf 20 →
    ether_ntoa m buf e = .ok (m.write buf (colons (e.map hexPair) ++ [0#8]), buf)

theorem etherTable_lo (o : Byte) : etherTable.getD (o &&& 15#8).toNat 0#8 = digitChar false (o.toNat % 16) := by
  revert o; decide +kernel

theorem etherTable_hi (o : Byte) :
    etherTable.getD ((o >>> 4) &&& 15#8).toNat 0#8 = digitChar false (o.toNat / 16) := by
  revert o; decide +kernel

theorem etherLoop_spec {buf : Nat} : ∀ (e : List Byte) {m : Mem} {i : Nat},
    m.Mapped (buf + i * 3) (e.length * 3) →
    etherLoop m buf i e = .ok (m.write (buf + i * 3) (e.flatMap fun o => hexPairSwapped o ++ [58#8])) := by
  intro e
  induction e with
  | nil => intro m i _; simp [etherLoop]
  | cons o e ih =>
    intro m i hm
    rw [List.length_cons, Nat.succ_mul] at hm
    rw [etherLoop, etherTable_lo, etherTable_hi]
    obtain ⟨e1, hm⟩ := store_step (n := e.length * 3 + 2) hm (digitChar false (o.toNat % 16))
    rw [e1]
    simp only [Res.ok_bind]
    obtain ⟨e2, hm⟩ := store_step (n := e.length * 3 + 1) hm (digitChar false (o.toNat / 16))
    rw [e2]
    simp only [Res.ok_bind]
    obtain ⟨e3, hm⟩ := store_step (n := e.length * 3) hm 58#8
    rw [show buf + i * 3 + 2 = buf + i * 3 + 1 + 1 by omega, e3]
    simp only [Res.ok_bind]
    rw [ih (by rw [show buf + (i + 1) * 3 = buf + i * 3 + 1 + 1 + 1 by omega]; exact hm)]
    rw [List.flatMap_cons]
    simp only [hexPairSwapped, List.cons_append, List.nil_append]
    rw [write_cons, write_cons, write_cons, show buf + (i + 1) * 3 = buf + i * 3 + 1 + 1 + 1 by omega]

/-- C62: what is written for every address: the right groups and separators and a NUL, 18 bytes in all,
but the two digits of every octet in reverse order.  Missing from the full statement: the order. -/
theorem C62_ether_ntoa_partial (m : Mem) (buf : Nat) (e : List Byte) (he : e.length = 6)
    (hm : m.Mapped buf 20) :
    ether_ntoa m buf e = .ok (m.write buf (colons (e.map hexPairSwapped) ++ [0#8]), buf) := by
  unfold ether_ntoa
  rw [etherLoop_spec e (by rw [he]; exact hm.mono (by omega))]
  simp only [Res.ok_bind]
  match e, he with
  | [a, b, c, d, f, g], _ =>
    obtain ⟨x, hx⟩ := (hm.write (buf + 0 * 3) ([a, b, c, d, f, g].flatMap fun o => hexPairSwapped o ++ [58#8])) 17 (by omega)
    rw [store_some hx]
    simp only [Res.ok_bind]
    have e1 : ([a, b, c, d, f, g].flatMap fun o => hexPairSwapped o ++ [58#8])
        = colons ([a, b, c, d, f, g].map hexPairSwapped) ++ [58#8] := by
      simp [colons, List.flatMap]
    have e2 : (colons ([a, b, c, d, f, g].map hexPairSwapped)).length = 17 := by
      simp [colons, hexPairSwapped]
    rw [e1, write_append, write_append, e2, write_singleton, write_singleton]
    have : ∀ (m : Mem) (p : Nat) (a b : Byte), (m.upd p a).upd p b = m.upd p b := by
      intro m p a b; funext x; unfold Mem.upd; split <;> rfl
    rw [Nat.zero_mul, Nat.add_zero, this]; rfl

/-- C62: for octets with two equal digits the text is right. -/
theorem C62_ether_ntoa_doubled_partial (m : Mem) (buf : Nat) (e : List Byte) (he : e.length = 6)
    (hm : m.Mapped buf 20) (hd : ∀ o ∈ e, o.toNat / 16 = o.toNat % 16) :
    ether_ntoa m buf e = .ok (m.write buf (colons (e.map hexPair) ++ [0#8]), buf) := by
  rw [C62_ether_ntoa_partial m buf e he hm]
  have : e.map hexPairSwapped = e.map hexPair := by
    apply List.map_congr_left
    intro o ho
    unfold hexPairSwapped hexPair
    rw [hd o ho]
  rw [this]

/-- C62 fails: 01:00:00:00:00:00 is written "10:00:…". -/
theorem C62_ether_ntoa_refuted : ¬ C62_ether_ntoa_full := by
  intro h
  have h1 := h (Mem.object 100 (List.replicate 20 9#8)) 100 [1#8, 0#8, 0#8, 0#8, 0#8, 0#8] rfl (by decide)
  rw [C62_ether_ntoa_partial _ _ _ rfl (by decide)] at h1
  simp only [Res.ok.injEq, Prod.mk.injEq, and_true] at h1
  have h2 := congrFun h1 100
  revert h2; decide

example : ether_ntoa (Mem.object 100 (List.replicate 20 9#8)) 100 [0x11#8, 0x22#8, 0#8, 0xff#8, 0#8, 0xaa#8]
    = .ok ((Mem.object 100 (List.replicate 20 9#8)).write 100
        (colons ([0x11#8, 0x22#8, 0#8, 0xff#8, 0#8, 0xaa#8].map hexPair) ++ [0#8]), 100) :=
  C62_ether_ntoa_doubled_partial _ _ _ rfl (by decide) (by decide)

/-! ### C63 gethostname -/

theorem hostLoop_spec {name : Nat} {len : Int} : ∀ (h : List Byte) {t : List Byte} {m : Mem} {i : Nat},
    (∀ b ∈ h, b ≠ 0#8) → (i : Int) ≤ len → m.Mapped name len.toNat →
    hostLoop m name i len (h ++ 0#8 :: t)
      = if (i + h.length : Int) < len then .ok (m.write (name + i) (h ++ [0#8]), i + h.length)
        else .ok (m.write (name + i) (h.take (len.toNat - i)), len.toNat) := by
  intro h
  induction h with
  | nil =>
    intro t m i _ hi hm
    rw [List.nil_append, hostLoop]
    simp only [List.length_nil]
    by_cases hl : (i : Int) < len
    · rw [if_pos hl, if_pos (by omega)]
      obtain ⟨x, hx⟩ := hm i (by omega)
      rw [store_some hx]
      simp only [Res.ok_bind, if_true, List.nil_append]
      rw [write_singleton]; rfl
    · rw [if_neg hl, if_neg (by omega)]
      simp
      omega
  | cons b h ih =>
    intro t m i hb hi hm
    rw [List.cons_append, hostLoop]
    by_cases hl : (i : Int) < len
    · rw [if_pos hl]
      obtain ⟨x, hx⟩ := hm i (by omega)
      rw [store_some hx]
      simp only [Res.ok_bind]
      rw [if_neg (hb b (by simp)), ih (fun x hx => hb x (by simp [hx])) (by omega) (hm.upd _ _)]
      simp only [List.length_cons]
      rw [show len.toNat - i = (len.toNat - (i + 1)) + 1 by omega, List.take_succ_cons, write_cons,
        List.cons_append, write_cons]
      by_cases hc : ((i : Int) + ((h.length + 1 : Nat) : Int)) < len
      · rw [if_pos hc, if_pos (by omega)]
        congr 2
        omega
      · rw [if_neg hc, if_neg (by omega)]
        rfl
    · rw [if_neg hl, if_neg (by simp only [List.length_cons]; omega)]
      rw [show len.toNat - i = 0 by omega]
      simp
      omega

/-- C63: for every buffer size of at least 1 and every node name the kernel can report, gethostname
writes the longest prefix of the name that fits together with a NUL, inside the buffer, and returns 0;
when uname fails it writes nothing and returns the error. -/
theorem C63_gethostname (m : Mem) (name : Nat) (len ret : Int) (h t : List Byte)
    (hb : ∀ b ∈ h, b ≠ 0#8) (hn : h.length ≤ 64) (hlen : 1 ≤ len) (hm : m.Mapped name len.toNat) :
    ∃ l, gethostname m name len ret (h ++ 0#8 :: t) = .ok (m.write name l, ret) ∧
      l = (if ret = 0 then h.take (len - 1).toNat ++ [0#8] else []) := by
  refine ⟨_, ?_, rfl⟩
  unfold gethostname
  by_cases hr : ret = 0
  · rw [if_pos hr, if_pos hr]
    have hlen' : hostLen len = min len 65 := by
      unfold hostLen; split <;> omega
    have hmm : m.Mapped name (hostLen len).toNat := hm.mono (by rw [hlen']; omega)
    rw [hostLoop_spec h hb (by rw [hlen']; omega) hmm]
    by_cases hc : ((0 : Nat) : Int) + (h.length : Int) < hostLen len
    · rw [if_pos hc]
      simp only [Res.ok_bind]
      rw [if_neg (by simp only [Nat.zero_add]; omega), List.take_of_length_le (by omega)]
      rfl
    · rw [if_neg hc]
      simp only [Res.ok_bind]
      rw [if_pos (by omega)]
      set L := (hostLen len).toNat with hL
      have hLl : hostLen len = len := by rw [hlen']; omega
      have h1 : 1 ≤ L := by omega
      obtain ⟨x, hx⟩ := (hmm.write (name + 0) (h.take (L - 0))) (L - 1) (by omega)
      rw [show name + L - 1 = name + (L - 1) by omega, store_some hx]
      simp only [Res.ok_bind]
      have e : h.take (L - 0) = h.take (L - 1) ++ [h[L - 1]'(by omega)] := by
        rw [Nat.sub_zero]
        conv_lhs => rw [show L = (L - 1) + 1 by omega]
        rw [List.take_succ_eq_append_getElem (by omega)]
      rw [e, show (len - 1).toNat = L - 1 by omega, write_append, write_append, write_singleton, write_singleton]
      have hl2 : (h.take (L - 1)).length = L - 1 := by simp; omega
      have : ∀ (m : Mem) (p : Nat) (a b : Byte), (m.upd p a).upd p b = m.upd p b := by
        intro m p a b; funext x; unfold Mem.upd; split <;> rfl
      rw [hl2, Nat.add_zero, this]; rfl
  · rw [if_neg hr, if_neg hr]; simp

example : gethostname (Mem.object 100 [9#8, 9#8, 9#8]) 100 3 0 ([97#8, 98#8, 99#8, 100#8] ++ 0#8 :: [])
    = .ok ((Mem.object 100 [9#8, 9#8, 9#8]).write 100 [97#8, 98#8, 0#8], 0) := by
  obtain ⟨l, e, rfl⟩ := C63_gethostname (Mem.object 100 [9#8, 9#8, 9#8]) 100 3 0
    [97#8, 98#8, 99#8, 100#8] [] (by decide) (by decide) (by decide) (by decide)
  exact e

/-- C30: 1.2.3.4 in memory. -/
example : ∀ k, k < 4 → Mem.object 100 [1#8, 2#8, 3#8, 4#8] (100 + k) = some (BitVec.ofNat 8 (0x01020304 / 256 ^ (3 - k))) :=
  C30_htonl_network_order 0x01020304#32 (Mem.object 100 [1#8, 2#8, 3#8, 4#8]) 100 (by decide)

/-- C31, C61: "x" is accepted, and "1.2.3.4" is. C62: each byte has its digits exchanged. -/
example : (∃ u, u.length = 4 ∧ inet_aton (Mem.object 100 [120#8, 0#8, 1#8, 1#8, 1#8, 1#8]) 100 102 =
      .ok ((Mem.object 100 [120#8, 0#8, 1#8, 1#8, 1#8, 1#8]).write 102 u, 1)) ∧
    (∃ m', inet_aton (Mem.object 100 [49#8, 46#8, 50#8, 46#8, 51#8, 46#8, 52#8, 0#8, 1#8, 1#8, 1#8, 1#8]) 100 108 = .ok (m', 1)) ∧
    ether_ntoa (Mem.object 100 (List.replicate 20 9#8)) 100 [0x12#8, 0x34#8, 0#8, 0xff#8, 0#8, 0xab#8] =
      .ok ((Mem.object 100 (List.replicate 20 9#8)).write 100
        (colons ([0x12#8, 0x34#8, 0#8, 0xff#8, 0#8, 0xab#8].map hexPairSwapped) ++ [0#8]), 100) :=
  ⟨C31_inet_aton_total _ 100 102 [120#8] (by decide) (by decide),
   C61_inet_aton_partial _ 100 108 [49#8, 46#8, 50#8, 46#8, 51#8, 46#8, 52#8] (by decide) (by decide)
     ⟨1, 2, 3, 4, by decide, by decide, by decide, by decide, by decide +kernel⟩,
   C62_ether_ntoa_partial _ 100 _ rfl (by decide)⟩

end Minilib

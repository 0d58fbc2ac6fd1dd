import Verif.Lemmas.Groups
import Verif.Spec.Groups
/-
C91: the groups of the process.
-/

set_option autoImplicit false

namespace Minilib
open Mem

/-- The process in the words of the specification. -/
def Cred.proc (c : Cred) : Spec.Proc := ⟨c.uid, c.gid, c.groups, c.root⟩

/-- One call: the answer, and the groups written to a list. -/
def idStep (kp kg : Mem → Mapping) (s : IdState) : Spec.IdOp → Res (IdState × Int × List Nat)
  | .pw op => do
    let r ← pwStep (kp s.m) s.pwd op
    pure (s.setPwd r.1, 0, [])
  | .getgroups max => getgroups kp kg s max
  | .initgroups p _ g => do
    let r ← initgroups kp kg s p g
    pure (r.1, r.2, [])
  | .setgroups l =>
    let c := sysSetgroups s.cred l.length l
    pure ({ s with cred := c.1 }, c.2, [])
  | .setgid g =>
    let c := sysSetgid s.cred g
    pure ({ s with cred := c.1 }, c.2, [])

/-- A list of calls and their answers. -/
def idRun (kp kg : Mem → Mapping) (s : IdState) : List Spec.IdOp → Res (IdState × List (Int × List Nat))
  | [] => .ok (s, [])
  | op :: ops => do
    let r ← idStep kp kg s op
    let q ← idRun kp kg r.1 ops
    pure (q.1, r.2 :: q.2)

/-- The kernel maps the text at `a`. -/
def fileAt (a : Nat) (text : List Byte) (m : Mem) : Mapping := some (mapFile a text m, a, text.length)

/-- The two files and where they are mapped. -/
structure IdFiles (pls : List Spec.PwLine) (gls : List Spec.GrLine) (a b : Nat) : Prop where
  pne : pls ≠ []
  pgood : ∀ l ∈ pls, l.Good
  pword : ∀ l ∈ pls, Spec.Word l.name
  gne : gls ≠ []
  ggood : ∀ l ∈ gls, l.Good
  ha : a ≠ 0
  hb : b ≠ 0
  plen : (Spec.pwText pls).length < 2147483648
  glen : (Spec.grText gls).length < 2147483648
  g64 : b + (Spec.grText gls).length < 18446744073709551616
  /-- the library uses the rest of the page behind the group file -/
  room : (Spec.grText gls).length + 8 * gls.length ≤ pageBytes (Spec.grText gls).length
  apart : a + pageBytes (Spec.pwText pls).length ≤ b ∨ b + pageBytes (Spec.grText gls).length ≤ a

/-- An address outside of both mappings. -/
def Elsewhere (pls : List Spec.PwLine) (gls : List Spec.GrLine) (a b x : Nat) : Prop :=
  (x < a ∨ a + pageBytes (Spec.pwText pls).length ≤ x) ∧ (x < b ∨ b + pageBytes (Spec.grText gls).length ≤ x)

/-- The names given to the calls are strings outside of the files. -/
def IdNamOk (pls : List Spec.PwLine) (gls : List Spec.GrLine) (a b : Nat) (m : Mem) : Spec.IdOp → Prop
  | .initgroups p name _ => m.IsStr p name ∧ Spec.Word name ∧ name.length < 2147483647 ∧
      ∀ i, i ≤ name.length → Elsewhere pls gls a b (p + i)
  | .pw (.nam p name) => m.IsStr p name ∧ Spec.Field name ∧ name.length < 2147483647 ∧
      ∀ i, i ≤ name.length → Elsewhere pls gls a b (p + i)
  | _ => True

/-- Both databases in one memory. -/
def IdInv (pls : List Spec.PwLine) (gls : List Spec.GrLine) (a b : Nat) (s : IdState) (k : Spec.PwMind) : Prop :=
  PwInv pls (uncut a (Spec.pwText pls) s.m) a s.pwd k ∧
    ((s.gf.file = 0 ∧ s.gr.mem.length = 64) ∨ ∃ pos r, GInv gls b s.grp pos r)

theorem isStr_elsewhere {m m' : Mem} {p : Nat} {l : List Byte} (h : m.IsStr p l) (he : ∀ i, i ≤ l.length → m' (p + i) = m (p + i)) :
    m'.IsStr p l :=
  isStr_same h (lo := p) (hi := p + l.length + 1) (fun x h1 h2 => by have := he (x - p) (by omega); rwa [show p + (x - p) = x by omega] at this)
    (Nat.le_refl _) (by omega)

theorem pwStep_open {kern kern' : Mapping} {s : PwState} {op : Spec.PwOp} (h : s.f.file ≠ 0) :
    pwStep kern s op = pwStep kern' s op := by
  cases op with
  | rewind => rfl
  | next => simp only [pwStep, getpwent, userdbOpen, if_pos h]
  | nam p n => simp only [pwStep, getpwnam, if_neg h]
  | uid n => simp only [pwStep, getpwuid, if_neg h]

/-- A call of the passwd functions within both databases. -/
theorem idPw {pls : List Spec.PwLine} {gls : List Spec.GrLine} {a b : Nat} {s : IdState} {k : Spec.PwMind} {op : Spec.PwOp}
    (hf : IdFiles pls gls a b) (hi : IdInv pls gls a b s k) (hsafe : Spec.pwSafeOp k op)
    (hn : match op with
      | .nam p name => s.m.IsStr p name ∧ Spec.Field name ∧ name.length < 2147483647 ∧
          ∀ i, i ≤ name.length → Elsewhere pls gls a b (p + i)
      | _ => True) :
    ∃ q w, pwStep (fileAt a (Spec.pwText pls) s.m) s.pwd op = .ok (q, w) ∧
      IdInv pls gls a b (s.setPwd q) (Spec.pwNext pls k op) ∧
      PwAnsIn q.m a (a + width (allFields pls)) w (Spec.pwAnswer pls k op) ∧
      (∀ x, Elsewhere pls gls a b x → q.m x = s.m x) := by
  obtain ⟨h1, h2⟩ := hi
  have hl := length_pwText pls
  have hpg := pageBytes_ge (Spec.pwText pls).length
  have hgg := pageBytes_ge (Spec.grText gls).length
  -- the memory in which the file is whole
  obtain ⟨m0, hm0, hT, hinv, hkern, hout⟩ : ∃ m0 : Mem, (∀ x, ¬ (a ≤ x ∧ x < a + pageBytes (Spec.pwText pls).length) → m0 x = s.m x) ∧
      m0.Holds a (Spec.pwText pls) ∧ PwInv pls m0 a s.pwd k ∧
      pwStep (fileAt a (Spec.pwText pls) s.m) s.pwd op = pwStep (some (m0, a, (Spec.pwText pls).length)) s.pwd op ∧
      (k.opened = true → ∀ x, ¬ (a ≤ x ∧ x < a + (Spec.pwText pls).length) → m0 x = s.m x) := by
    cases ho : k.opened with
    | true =>
      refine ⟨uncut a (Spec.pwText pls) s.m, ?_, uncut_holds _ _ _, h1, pwStep_open ?_, ?_⟩
      · intro x hx
        unfold uncut; rw [if_neg (by omega)]
      · obtain ⟨_, h1⟩ := h1
        rw [if_pos ho] at h1
        rw [h1.1]; exact hf.ha
      · intro _ x hx
        unfold uncut; rw [if_neg (by omega)]
    | false =>
      refine ⟨mapFile a (Spec.pwText pls) s.m, fun x hx => mapFile_outside (by omega), mapFile_holds _ _ _, ?_, rfl, by simp⟩
      obtain ⟨h0, h1⟩ := h1
      refine ⟨h0, ?_⟩
      rw [if_neg (by simp [ho])] at h1 ⊢
      exact h1
  have hnam : NamOk m0 op := by
    cases op with
    | nam p name =>
      refine ⟨isStr_elsewhere hn.1 (fun i hi => ?_), hn.2.1, hn.2.2.1⟩
      exact hm0 _ (by have := (hn.2.2.2 i hi).1; omega)
    | _ => trivial
  obtain ⟨q, w, e, i1, a1, c1⟩ := pwStep_inv hf.pne hf.pgood hf.ha hf.plen hT hinv hnam hsafe
  have hq : ∀ x, ¬ (a ≤ x ∧ x < a + pageBytes (Spec.pwText pls).length) → q.m x = s.m x := by
    intro x hx
    rcases c1 with ⟨_, c⟩ | ⟨_, c⟩ | c
    · rw [c]; rfl
    · rw [c.outside (by omega)]; exact hm0 x hx
    · rw [c.outside (by omega)]; rfl
  refine ⟨q, w, by rw [hkern, e], ⟨?_, ?_⟩, a1, fun x hx => hq x (by have := hx.1; omega)⟩
  · exact pwInv_same hT i1 (fun x _ _ => rfl)
  · rcases h2 with h2 | ⟨pos, r, h2⟩
    · exact Or.inl h2
    · refine Or.inr ⟨pos, r, ?_⟩
      refine gInv_same (s := s.grp) hf.ggood h2 (fun x hx1 hx2 => hq x ?_)
      have := hf.apart
      have := hf.room
      omega

/-- getusergroups within both databases. -/
theorem idGr {pls : List Spec.PwLine} {gls : List Spec.GrLine} {a b : Nat} {s : IdState} {k : Spec.PwMind} {user max : Nat}
    {name : List Byte} (hf : IdFiles pls gls a b) (hi : IdInv pls gls a b s k) (hu : s.m.IsStr user name) (hw : Spec.Word name)
    (ho : ∀ i, i ≤ name.length → user + i < b ∨ b + pageBytes (Spec.grText gls).length ≤ user + i) :
    ∃ q, getusergroups (fileAt b (Spec.grText gls) s.m) s.grp user max = .ok (q, Spec.listed (Spec.groupsOf gls name) max) ∧
      IdInv pls gls a b (s.setGrp q) k ∧
      (∀ x, (x < b ∨ b + pageBytes (Spec.grText gls).length ≤ x) → q.m x = s.m x) := by
  obtain ⟨h1, h2⟩ := hi
  have hl := length_pwText pls
  have hpg := pageBytes_ge (Spec.pwText pls).length
  have hgg := pageBytes_ge (Spec.grText gls).length
  have hroom := hf.room
  have hap := hf.apart
  have hpos : 0 < gls.length := List.length_pos_iff.2 hf.gne
  have hspec : Spec.userGroups (Spec.groupsOf gls name) [] max = Spec.listed (Spec.groupsOf gls name) max := by
    simp [Spec.userGroups, Spec.listed]
  have hwhere : user + name.length < b + (Spec.grText gls).length ∨ b + (Spec.grText gls).length + 8 * gls.length ≤ user := by
    have h0 := ho 0 (by omega)
    have h3 := ho name.length (Nat.le_refl _)
    by_cases hc : user < b ∧ b + pageBytes (Spec.grText gls).length ≤ user + name.length
    · have h4 := ho (b - user) (by omega)
      omega
    · omega
  suffices h : ∃ q, getusergroups (fileAt b (Spec.grText gls) s.m) s.grp user max =
        .ok (q, Spec.userGroups (Spec.groupsOf gls name) [] max) ∧
      ((q.f.file = 0 ∧ q.gr.mem.length = 64) ∨ ∃ pos r, GInv gls b q pos r) ∧
      (∀ x, (x < b ∨ b + pageBytes (Spec.grText gls).length ≤ x) → q.m x = s.m x) by
    obtain ⟨q, e, g, c⟩ := h
    refine ⟨q, by rw [e, hspec], ⟨?_, g⟩, c⟩
    exact pwInv_same (s := s.pwd) (uncut_holds _ _ _) h1 (fun x hx1 hx2 => c x (by omega))
  have hcut : ∀ {m m' : Mem}, GCut gls b m m' → ∀ x, (x < b ∨ b + pageBytes (Spec.grText gls).length ≤ x) → m' x = m x := by
    intro m m' c x hx
    rcases c x with e | ⟨e1, e2, _⟩ | ⟨e1, e2, _⟩
    · exact e
    · omega
    · omega
  rcases h2 with ⟨h2, h3⟩ | ⟨pos, r, h2⟩
  · cases max with
    | zero =>
      refine ⟨setgrent s.grp, ?_, Or.inl ?_, fun x _ => rfl⟩
      · rw [getusergroups, usergroupsLoop]; simp [Spec.userGroups]
      · exact ⟨h2, h3⟩
    | succ n =>
      have hu' : (mapFile b (Spec.grText gls) s.m).IsStr user name :=
        isStr_elsewhere hu (fun i hi => mapFile_outside (ho i hi))
      obtain ⟨s', p', r', e, i', c'⟩ := usergroupsLoop_eq (kern := fileAt b (Spec.grText gls) s.m) (user := user) (name := name)
        hf.ggood hf.hb hf.g64 hf.glen gls _ 0 0 (n + 1) [] rfl
        (ginv_open (gr := s.gr) (mapFile_holds b (Spec.grText gls) s.m) (fun i hi => mapFile_zero (by omega)) h3) hu' hw hwhere
      refine ⟨s', ?_, Or.inr ⟨p', r', i'⟩, fun x hx => ?_⟩
      · rw [getusergroups, fileAt, usergroups_opens hf.hb (show (setgrent s.grp).f.file = 0 from h2)]
        exact e
      · rw [hcut c' x hx]; exact mapFile_outside hx
  · obtain ⟨s', p', r', e, i', c'⟩ := usergroupsLoop_eq (kern := fileAt b (Spec.grText gls) s.m) (user := user) (name := name)
      hf.ggood hf.hb hf.g64 hf.glen gls _ 0 r max [] rfl (ginv_rewind h2) hu hw hwhere
    exact ⟨s', e, Or.inr ⟨p', r', i'⟩, hcut c'⟩

theorem setPwd_pwd (s : IdState) (q : PwState) : (s.setPwd q).pwd = q := rfl

theorem groupsOf_lt {gls : List Spec.GrLine} (hG : ∀ l ∈ gls, l.Good) (name : List Byte) :
    ∀ g ∈ Spec.groupsOf gls name, g < 4294967295 := by
  intro g hg
  unfold Spec.groupsOf at hg
  obtain ⟨l, hl, rfl⟩ := List.mem_map.1 hg
  have := (hG l (List.mem_filter.1 hl).1).2.2.2.1.2
  omega

theorem pwAnswer_memb {pls : List Spec.PwLine} {k : Spec.PwMind} {op : Spec.PwOp} {e : Spec.PwLine}
    (hl : ∀ e, k.last = some e → e ∈ pls) (h : Spec.pwAnswer pls k op = some e) : e ∈ pls := by
  have hc : ∀ P, Spec.cached pls k.last P = some e → e ∈ pls := by
    intro P h
    unfold Spec.cached at h
    split at h
    · rename_i e' he'
      split at h
      · cases h; exact hl _ he'
      · exact List.mem_of_find?_eq_some h
    · exact List.mem_of_find?_eq_some h
  cases op with
  | rewind => cases h
  | next => exact List.mem_of_getElem? h
  | nam p n => exact hc _ h
  | uid n => exact hc _ h

theorem pwAnswer_nam {pls : List Spec.PwLine} {k : Spec.PwMind} {p : Nat} {name : List Byte} {e : Spec.PwLine}
    (h : Spec.pwAnswer pls k (.nam p name) = some e) : e.name = name := by
  simp only [Spec.pwAnswer, Spec.cached] at h
  split at h
  · split at h
    · rename_i h1; cases h; simpa using h1
    · simpa using List.find?_some h
  · simpa using List.find?_some h

/-- One call. -/
theorem idStep_inv {pls : List Spec.PwLine} {gls : List Spec.GrLine} {a b : Nat} {s : IdState} {k : Spec.PwMind} {op : Spec.IdOp}
    (hf : IdFiles pls gls a b) (hi : IdInv pls gls a b s k) (hn : IdNamOk pls gls a b s.m op)
    (hsafe : ∀ o, op.pwOp s.cred.proc = some o → Spec.pwSafeOp k o) :
    ∃ s', idStep (fileAt a (Spec.pwText pls)) (fileAt b (Spec.grText gls)) s op = .ok (s', (Spec.idCall pls gls k s.cred.proc op).1) ∧
      IdInv pls gls a b s' (Spec.idMind pls k s.cred.proc op) ∧ s'.cred.proc = (Spec.idCall pls gls k s.cred.proc op).2 ∧
      (∀ x, Elsewhere pls gls a b x → s'.m x = s.m x) := by
  have hpg := pageBytes_ge (Spec.pwText pls).length
  have hl := length_pwText pls
  cases op with
  | pw op =>
    obtain ⟨q, w, e, i, -, c⟩ := idPw (op := op) hf hi (hsafe op rfl) (by cases op <;> first | exact hn | trivial)
    refine ⟨s.setPwd q, ?_, i, rfl, c⟩
    simp only [idStep]
    rw [e]; rfl
  | getgroups max =>
    obtain ⟨q, w, e, i, an, c⟩ := idPw (op := .uid s.cred.uid) hf hi trivial trivial
    have e' : ∃ t, getpwuid (fileAt a (Spec.pwText pls) s.m) s.pwd s.cred.uid = .ok (q, t) ∧ w = (if t = true then some q.pw else none) := by
      simp only [pwStep] at e
      obtain ⟨t, h1, h2⟩ := Res.bind_eq_ok.1 e
      simp only [Res.pure_eq, Res.ok.injEq, Prod.mk.injEq] at h2
      obtain ⟨h2, h3⟩ := h2
      exact ⟨t.2, by rw [h1, ← h2], by rw [← h3, h2]⟩
    obtain ⟨t, e', hw⟩ := e'
    simp only [idStep, getgroups]
    rw [e', Res.ok_bind]
    dsimp only
    simp only [Spec.idCall]
    rw [show s.cred.proc.uid = s.cred.uid from rfl]
    cases hans : Spec.pwAnswer pls k (.uid s.cred.uid) with
    | none =>
      rw [hans] at an
      cases t with
      | true => rw [hw] at an; exact an.elim
      | false => exact ⟨s.setPwd q, rfl, i, rfl, c⟩
    | some el =>
      rw [hans] at an
      cases t with
      | false => rw [hw] at an; exact an.elim
      | true =>
        rw [hw] at an
        obtain ⟨a1, a2, a3⟩ := an
        rw [if_neg (by simp)]
        obtain ⟨g, e2, i2, c2⟩ := idGr (s := s.setPwd q) (user := q.pw.name) (name := el.name) (max := max) hf i a1.1
          (hf.pword el (pwAnswer_memb hi.1.1 hans)) (fun j hj => by
            have := a2.1; have := a2.2.1; have := hf.apart; omega)
        rw [show (s.setPwd q).m = q.m from rfl] at e2
        rw [e2, Res.ok_bind]
        exact ⟨(s.setPwd q).setGrp g, rfl, i2, rfl, fun x hx => (c2 x hx.2).trans (c x hx)⟩
  | initgroups p name gid =>
    obtain ⟨n1, n2, n3, n4⟩ := hn
    obtain ⟨q, w, e, i, an, c⟩ := idPw (op := .nam p name) hf hi (hsafe _ rfl) ⟨n1, word_field n2, n3, n4⟩
    have e' : ∃ t, getpwnam (fileAt a (Spec.pwText pls) s.m) s.pwd p = .ok (q, t) ∧ w = (if t = true then some q.pw else none) := by
      simp only [pwStep] at e
      obtain ⟨t, h1, h2⟩ := Res.bind_eq_ok.1 e
      simp only [Res.pure_eq, Res.ok.injEq, Prod.mk.injEq] at h2
      obtain ⟨h2, h3⟩ := h2
      exact ⟨t.2, by rw [h1, ← h2], by rw [← h3, h2]⟩
    obtain ⟨t, e', hw⟩ := e'
    simp only [idStep, initgroups]
    rw [e', Res.ok_bind]
    dsimp only
    simp only [Spec.idCall]
    cases hans : Spec.pwAnswer pls k (.nam p name) with
    | none =>
      rw [hans] at an
      cases t with
      | true => rw [hw] at an; exact an.elim
      | false => exact ⟨s.setPwd q, rfl, i, rfl, c⟩
    | some el =>
      rw [hans] at an
      cases t with
      | false => rw [hw] at an; exact an.elim
      | true =>
        rw [hw] at an
        obtain ⟨a1, a2, a3⟩ := an
        rw [if_neg (by simp)]
        have n1' : (s.setPwd q).m.IsStr p name := isStr_elsewhere n1 (fun j hj => c _ (n4 j hj))
        obtain ⟨g, e2, i2, c2⟩ := idGr (s := s.setPwd q) (user := p) (name := name) (max := 128) hf i n1' n2
          (fun j hj => (n4 j hj).2)
        rw [show (s.setPwd q).m = q.m from rfl] at e2
        rw [e2, Res.ok_bind]
        dsimp only
        have hgid : q.pw.gid = Spec.decValue el.gid := a1.2.2.2.1
        have hlt : Spec.decValue el.gid < 4294967295 := by have := a3.2.2.2.2; omega
        have hgl := groupsOf_lt hf.ggood name
        have hc3 : ∀ x, Elsewhere pls gls a b x → g.m x = s.m x := fun x hx => (c2 x hx.2).trans (c x hx)
        have hcr : (((s.setPwd q).setGrp g).cred) = s.cred := rfl
        have hpw : (((s.setPwd q).setGrp g).pw.gid) = q.pw.gid := rfl
        rw [hcr, hpw, hgid]
        by_cases hr : s.cred.root = true ∧ (Spec.groupsOf gls name).length < 128
        · rw [if_pos (show s.cred.proc.root = true ∧ _ from hr)]
          have hs1 : sysSetgroups s.cred (Spec.listed (Spec.groupsOf gls name) 128).1 (Spec.listed (Spec.groupsOf gls name) 128).2 =
              ({ s.cred with groups := Spec.groupsOf gls name }, 0) := by
            unfold sysSetgroups Spec.listed
            rw [if_pos hr.2]
            exact if_pos ⟨hr.1, by simp, by simp; omega, hgl⟩
          rw [hs1]
          dsimp only
          rw [if_neg (by omega)]
          have hs2 : sysSetgid { s.cred with groups := Spec.groupsOf gls name } (Spec.decValue el.gid) =
              ({ s.cred with groups := Spec.groupsOf gls name, gid := Spec.decValue el.gid }, 0) := by
            unfold sysSetgid
            rw [if_pos ⟨hlt, Or.inl hr.1⟩]
          rw [hs2]
          dsimp only
          rw [if_neg (by omega)]
          exact ⟨_, rfl, i2, rfl, hc3⟩
        · rw [if_neg (show ¬ (s.cred.proc.root = true ∧ _) from hr)]
          have hs1 : sysSetgroups s.cred (Spec.listed (Spec.groupsOf gls name) 128).1 (Spec.listed (Spec.groupsOf gls name) 128).2 =
              (s.cred, -1) := by
            unfold sysSetgroups Spec.listed
            split
            · exact if_neg (fun h => hr ⟨h.1, by assumption⟩)
            · exact if_neg (fun h => by have := h.2.1; omega)
          rw [hs1]
          dsimp only
          rw [if_pos (by omega)]
          exact ⟨_, rfl, i2, rfl, hc3⟩
  | setgroups l =>
    simp only [idStep, Spec.idCall, sysSetgroups]
    by_cases h : s.cred.root = true ∧ l.length ≤ 65536 ∧ ∀ g ∈ l, g < 4294967295
    · rw [if_pos (show s.cred.proc.root = true ∧ _ from h), if_pos ⟨h.1, by omega, by omega, h.2.2⟩]
      exact ⟨_, rfl, hi, rfl, fun _ _ => rfl⟩
    · rw [if_neg (show ¬ (s.cred.proc.root = true ∧ _) from h),
        if_neg (show ¬ (s.cred.root = true ∧ _) from fun g => h ⟨g.1, by have := g.2.2.1; omega, g.2.2.2⟩)]
      exact ⟨_, rfl, hi, rfl, fun _ _ => rfl⟩
  | setgid g =>
    simp only [idStep, Spec.idCall, sysSetgid]
    by_cases h : g < 4294967295 ∧ (s.cred.root = true ∨ g = s.cred.gid)
    · rw [if_pos (show g < 4294967295 ∧ (s.cred.proc.root = true ∨ g = s.cred.proc.gid) from h), if_pos h]
      exact ⟨_, rfl, hi, rfl, fun _ _ => rfl⟩
    · rw [if_neg (show ¬ (g < 4294967295 ∧ (s.cred.proc.root = true ∨ g = s.cred.proc.gid)) from h), if_neg h]
      exact ⟨_, rfl, hi, rfl, fun _ _ => rfl⟩

theorem idNamOk_same {pls : List Spec.PwLine} {gls : List Spec.GrLine} {a b : Nat} {m m' : Mem} {op : Spec.IdOp}
    (h : IdNamOk pls gls a b m op) (he : ∀ x, Elsewhere pls gls a b x → m' x = m x) : IdNamOk pls gls a b m' op := by
  cases op with
  | initgroups p name g => exact ⟨isStr_elsewhere h.1 (fun i hi => he _ (h.2.2.2 i hi)), h.2⟩
  | pw op =>
    cases op with
    | nam p name => exact ⟨isStr_elsewhere h.1 (fun i hi => he _ (h.2.2.2 i hi)), h.2⟩
    | _ => trivial
  | _ => trivial

theorem idRun_inv {pls : List Spec.PwLine} {gls : List Spec.GrLine} {a b : Nat} {s : IdState} {k : Spec.PwMind} {ops : List Spec.IdOp}
    (hf : IdFiles pls gls a b) (hi : IdInv pls gls a b s k) (hn : ∀ op ∈ ops, IdNamOk pls gls a b s.m op)
    (hsafe : Spec.idSafe pls gls k s.cred.proc ops) :
    ∃ s', idRun (fileAt a (Spec.pwText pls)) (fileAt b (Spec.grText gls)) s ops =
        .ok (s', (Spec.idCalls pls gls k s.cred.proc ops).1) ∧
      s'.cred.proc = (Spec.idCalls pls gls k s.cred.proc ops).2 ∧ (∀ x, Elsewhere pls gls a b x → s'.m x = s.m x) := by
  induction ops generalizing s k with
  | nil => exact ⟨s, rfl, rfl, fun _ _ => rfl⟩
  | cons op ops ih =>
    obtain ⟨s1, e1, i1, p1, c1⟩ := idStep_inv hf hi (hn op (by simp)) hsafe.1
    obtain ⟨s2, e2, p2, c2⟩ := ih i1 (fun o ho => idNamOk_same (hn o (by simp [ho])) c1) (by rw [p1]; exact hsafe.2)
    refine ⟨s2, ?_, ?_, fun x hx => (c2 x hx).trans (c1 x hx)⟩
    · rw [idRun, e1, Res.ok_bind]
      dsimp only
      rw [e2, Res.ok_bind, p1]; rfl
    · rw [p2, p1]; rfl

/-- The state of a new process with these credentials: no file is open. -/
def IdFresh (s : IdState) : Prop := s.pf.file = 0 ∧ s.pw.name = 0 ∧ s.gf.file = 0 ∧ s.gr.mem.length = 64

theorem idFresh_inv {pls : List Spec.PwLine} {gls : List Spec.GrLine} {a b : Nat} {s : IdState} (h : IdFresh s) :
    IdInv pls gls a b s { opened := false, pos := 0, last := none } := by
  refine ⟨⟨by simp, ?_⟩, Or.inl ⟨h.2.2.1, h.2.2.2⟩⟩
  rw [if_neg (by simp)]
  exact ⟨h.1, h.2.1, rfl⟩

/-- C91: for well-formed files, every history of initgroups, getgroups, setgroups, setgid and the passwd functions is free of
undefined behaviour.  getgroups lists the groups of the group file that have the user of the process as a member, in the order of
the file, and answers their number, if the list has one cell more; else it answers -1.  initgroups of a user of the passwd file
gives a privileged process exactly these groups, and the group of the passwd file as its group; in all other cases it answers -1
and the process stays as it was.  Nothing outside of the mappings is written.
Missing: getgroups does not ask the kernel (`C91_getgroups_refuted`), initgroups leaves out the group that is given
(`C91_given_refuted`) and changes the group of the process (`C91_gid_refuted`), a list without a spare cell
(`C91_count_refuted`). -/
theorem C91_groups_partial {pls : List Spec.PwLine} {gls : List Spec.GrLine} {a b : Nat} {s : IdState} {ops : List Spec.IdOp}
    (hf : IdFiles pls gls a b) (hs : IdFresh s) (hn : ∀ op ∈ ops, IdNamOk pls gls a b s.m op)
    (hsafe : Spec.idSafe pls gls { opened := false, pos := 0, last := none } s.cred.proc ops) :
    ∃ s', idRun (fileAt a (Spec.pwText pls)) (fileAt b (Spec.grText gls)) s ops =
        .ok (s', (Spec.idCalls pls gls { opened := false, pos := 0, last := none } s.cred.proc ops).1) ∧
      s'.cred.proc = (Spec.idCalls pls gls { opened := false, pos := 0, last := none } s.cred.proc ops).2 ∧
      (∀ x, Elsewhere pls gls a b x → s'.m x = s.m x) :=
  idRun_inv hf (idFresh_inv hs) hn hsafe

theorem idCalls_unprivileged {pls : List Spec.PwLine} {gls : List Spec.GrLine} {k : Spec.PwMind} {c : Spec.Proc} {ops : List Spec.IdOp}
    (hr : c.root = false) : (Spec.idCalls pls gls k c ops).2 = c := by
  induction ops generalizing k with
  | nil => rfl
  | cons op ops ih =>
    have h : (Spec.idCall pls gls k c op).2 = c := by
      cases op with
      | pw op => rfl
      | getgroups max => simp only [Spec.idCall]; split <;> rfl
      | initgroups p n g => simp only [Spec.idCall, hr]; split <;> simp
      | setgroups l => simp [Spec.idCall, hr]
      | setgid g =>
        simp only [Spec.idCall, hr]
        split
        · rename_i h
          have : g = c.gid := by simpa using h.2
          subst this
          cases c; cases hr; rfl
        · rfl
    simp only [Spec.idCalls]
    rw [h, ih]

/-- C91: a process that is not privileged keeps its groups and its group through every history. -/
theorem C91_unprivileged {pls : List Spec.PwLine} {gls : List Spec.GrLine} {a b : Nat} {s : IdState} {ops : List Spec.IdOp}
    (hf : IdFiles pls gls a b) (hs : IdFresh s) (hn : ∀ op ∈ ops, IdNamOk pls gls a b s.m op)
    (hsafe : Spec.idSafe pls gls { opened := false, pos := 0, last := none } s.cred.proc ops) (hr : s.cred.root = false) :
    ∃ s' ws, idRun (fileAt a (Spec.pwText pls)) (fileAt b (Spec.grText gls)) s ops = .ok (s', ws) ∧ s'.cred = s.cred := by
  obtain ⟨s', h1, h2, -⟩ := C91_groups_partial hf hs hn hsafe
  rw [idCalls_unprivileged hr] at h2
  refine ⟨s', _, h1, ?_⟩
  simp only [Cred.proc, Spec.Proc.mk.injEq] at h2
  obtain ⟨e1, e2, e3, e4⟩ := h2
  cases h : s'.cred; cases h' : s.cred
  rw [h, h'] at e1 e2 e3 e4
  simp_all

/-! ### a case -/

/-- The passwd file is mapped at 4096, the group file at 8192; the names `u`, `r` and `q` are at 100, 110 and 120. -/
def exIdMem : Mem := objects [(100, [117#8, 0#8]), (110, [114#8, 0#8]), (120, [113#8, 0#8])]

def exIdState (c : Cred) : IdState := ⟨exIdMem, ⟨0, 0, 0, 0⟩, ⟨0, 0, 0, 0, 0, 0, 0⟩, ⟨0, 0, 0, 0⟩, ⟨0, 0, 0, List.replicate 64 0⟩, c⟩

theorem exIdFiles : IdFiles [exRoot, exUser] [exWheel, exUsers] 4096 8192 :=
  ⟨by simp, by decide, by decide, by simp, by decide, by decide, by decide, by decide, by decide, by decide, by decide +kernel,
    by decide +kernel⟩

theorem exIdFresh (c : Cred) : IdFresh (exIdState c) := ⟨rfl, rfl, rfl, rfl⟩

theorem exId_str {p : Nat} {b : Byte} (h : (p, b) = (100, 117#8) ∨ (p, b) = (110, 114#8) ∨ (p, b) = (120, 113#8)) :
    exIdMem.IsStr p [b] ∧ Spec.Word [b] ∧ [b].length < 2147483647 ∧
      ∀ i, i ≤ [b].length → Elsewhere [exRoot, exUser] [exWheel, exUsers] 4096 8192 (p + i) := by
  have he : p ≤ 120 := by
    rcases h with h | h | h <;> cases h <;> omega
  refine ⟨?_, ?_, by simp, fun i hi => ⟨Or.inl ?_, Or.inl ?_⟩⟩
  · rcases h with h | h | h <;> cases h <;> exact ⟨by decide, by decide⟩
  · rcases h with h | h | h <;> cases h <;> decide
  · have : i ≤ 1 := hi
    omega
  · have : i ≤ 1 := hi
    omega

/-- The user 12 of the example is `u`, a member of 10 and 12. -/
example : ∃ s', idRun (fileAt 4096 (Spec.pwText [exRoot, exUser])) (fileAt 8192 (Spec.grText [exWheel, exUsers]))
      (exIdState ⟨12, 0, [3], true⟩)
      [.getgroups 2, .getgroups 3, .initgroups 110 [114#8] 7, .initgroups 100 [117#8] 7, .initgroups 120 [113#8] 7, .setgroups [9], .getgroups 5] =
      .ok (s', [(-1, [10, 12]), (2, [10, 12]), (0, []), (0, []), (-1, []), (0, []), (2, [10, 12])]) ∧
    s'.cred.proc = ⟨12, 5, [9], true⟩ := by
  obtain ⟨s', h1, h2, -⟩ := C91_groups_partial (s := exIdState ⟨12, 0, [3], true⟩)
    (ops := [.getgroups 2, .getgroups 3, .initgroups 110 [114#8] 7, .initgroups 100 [117#8] 7, .initgroups 120 [113#8] 7, .setgroups [9], .getgroups 5])
    exIdFiles (exIdFresh _) (by
      intro op hop
      simp only [List.mem_cons, List.not_mem_nil, or_false] at hop
      rcases hop with rfl | rfl | rfl | rfl | rfl | rfl | rfl
      all_goals first | trivial | exact exId_str (by simp)) (by
      simp [Spec.idSafe, Spec.IdOp.pwOp, Spec.idMind, Spec.idCall, Spec.pwSafeOp, Spec.pwNext, Spec.pwAnswer, Spec.cached, exIdState,
        Cred.proc, exRoot, exUser, Spec.decValue, Spec.groupsOf, exWheel, exUsers])
  refine ⟨s', ?_, ?_⟩
  · rw [h1]
    congr 1
  · rw [h2]
    decide

/-! ### where the property fails -/

/-- The claim that getgroups answers the groups of the process. -/
def C91_getgroups_full : Prop :=
  ∀ (pls : List Spec.PwLine) (gls : List Spec.GrLine) (a b : Nat) (s : IdState) (max : Nat), IdFiles pls gls a b → IdFresh s →
    s.cred.groups.length < max →
    ∃ s', getgroups (fileAt a (Spec.pwText pls)) (fileAt b (Spec.grText gls)) s max = .ok (s', s.cred.groups.length, s.cred.groups)

/-- C91: whatever the groups of the process are, getgroups answers those of the group file. -/
theorem getgroups_file {pls : List Spec.PwLine} {gls : List Spec.GrLine} {a b : Nat} {s : IdState} (max : Nat) (hf : IdFiles pls gls a b)
    (hs : IdFresh s) : ∃ s', getgroups (fileAt a (Spec.pwText pls)) (fileAt b (Spec.grText gls)) s max =
      .ok (s', match pls.find? (fun e => Spec.decValue e.uid = s.cred.uid) with
        | none => (-1, [])
        | some e => Spec.listed (Spec.groupsOf gls e.name) max) := by
  obtain ⟨s', h, -⟩ := idStep_inv (op := .getgroups max) hf (idFresh_inv hs) trivial (fun o ho => by cases ho; trivial)
  refine ⟨s', ?_⟩
  simp only [idStep] at h
  rw [h]
  simp only [Spec.idCall, Spec.pwAnswer, Spec.cached]
  rw [show s.cred.proc.uid = s.cred.uid from rfl]
  cases pls.find? (fun e => decide (Spec.decValue e.uid = s.cred.uid)) <;> rfl

/-- C91: getgroups of a process with the only group 3 answers 10 and 12. -/
theorem C91_getgroups_refuted : ¬ C91_getgroups_full := by
  intro h
  obtain ⟨s', h1⟩ := h _ _ _ _ (exIdState ⟨12, 0, [3], true⟩) 5 exIdFiles (exIdFresh _) (by decide)
  obtain ⟨s2, h2⟩ := getgroups_file 5 exIdFiles (exIdFresh ⟨12, 0, [3], true⟩)
  rw [h1] at h2
  simp only [Res.ok.injEq, Prod.mk.injEq] at h2
  exact absurd h2.2 (by decide)

/-- The claim that getgroups(0,…) answers the number of groups. -/
def C91_count_full : Prop :=
  ∀ (pls : List Spec.PwLine) (gls : List Spec.GrLine) (a b : Nat) (s : IdState) (e : Spec.PwLine), IdFiles pls gls a b → IdFresh s →
    pls.find? (fun e => Spec.decValue e.uid = s.cred.uid) = some e → s.cred.groups = Spec.groupsOf gls e.name →
    ∃ s', getgroups (fileAt a (Spec.pwText pls)) (fileAt b (Spec.grText gls)) s 0 = .ok (s', s.cred.groups.length, [])

/-- C91: getgroups(0,…) answers -1, also when the groups of the process are those of the file. -/
theorem C91_count_refuted : ¬ C91_count_full := by
  intro h
  obtain ⟨s', h1⟩ := h _ _ _ _ (exIdState ⟨12, 0, [10, 12], true⟩) exUser exIdFiles (exIdFresh _) (by decide) (by decide)
  obtain ⟨s2, h2⟩ := getgroups_file 0 exIdFiles (exIdFresh ⟨12, 0, [10, 12], true⟩)
  rw [h1] at h2
  simp only [Res.ok.injEq, Prod.mk.injEq] at h2
  exact absurd h2.2 (by decide)

/-- The claim that the given group is one of the groups after initgroups. -/
def C91_given_full : Prop :=
  ∀ (pls : List Spec.PwLine) (gls : List Spec.GrLine) (a b : Nat) (s s' : IdState) (p g : Nat) (name : List Byte),
    IdFiles pls gls a b → IdFresh s → IdNamOk pls gls a b s.m (.initgroups p name g) →
    initgroups (fileAt a (Spec.pwText pls)) (fileAt b (Spec.grText gls)) s p g = .ok (s', 0) → g ∈ s'.cred.groups

/-- The claim that initgroups leaves the group of the process alone. -/
def C91_gid_full : Prop :=
  ∀ (pls : List Spec.PwLine) (gls : List Spec.GrLine) (a b : Nat) (s s' : IdState) (p g : Nat) (name : List Byte),
    IdFiles pls gls a b → IdFresh s → IdNamOk pls gls a b s.m (.initgroups p name g) →
    initgroups (fileAt a (Spec.pwText pls)) (fileAt b (Spec.grText gls)) s p g = .ok (s', 0) → s'.cred.gid = s.cred.gid

theorem exId_init : ∃ s', initgroups (fileAt 4096 (Spec.pwText [exRoot, exUser])) (fileAt 8192 (Spec.grText [exWheel, exUsers]))
    (exIdState ⟨0, 0, [3], true⟩) 100 7 = .ok (s', 0) ∧ s'.cred.groups = [10, 12] ∧ s'.cred.gid = 5 := by
  obtain ⟨s', h, -, hc, -⟩ := idStep_inv (op := .initgroups 100 [117#8] 7) exIdFiles (idFresh_inv (exIdFresh ⟨0, 0, [3], true⟩))
    (exId_str (by simp)) (fun o ho => by cases ho; simp [Spec.pwSafeOp])
  simp only [idStep] at h
  obtain ⟨r, h1, h2⟩ := Res.bind_eq_ok.1 h
  simp only [Res.pure_eq, Res.ok.injEq, Prod.mk.injEq] at h2
  obtain ⟨rfl, h2⟩ := h2
  refine ⟨r.1, ?_, ?_, ?_⟩
  · rw [h1]
    have : r.2 = 0 := by
      rw [Prod.ext_iff] at h2
      exact h2.1.trans (by decide)
    rw [← this]
  · exact (congrArg Spec.Proc.groups hc).trans (by decide)
  · exact (congrArg Spec.Proc.gid hc).trans (by decide)

/-- C91: initgroups("u",7) sets the groups 10 and 12 only. -/
theorem C91_given_refuted : ¬ C91_given_full := by
  intro h
  obtain ⟨s', h1, h2, -⟩ := exId_init
  have := h _ _ _ _ _ s' 100 7 [117#8] exIdFiles (exIdFresh _) (exId_str (by simp)) h1
  rw [h2] at this
  exact absurd this (by decide)

/-- C91: initgroups("u",7) gives a process of the group 0 the group 5. -/
theorem C91_gid_refuted : ¬ C91_gid_full := by
  intro h
  obtain ⟨s', h1, -, h2⟩ := exId_init
  have := h _ _ _ _ _ s' 100 7 [117#8] exIdFiles (exIdFresh _) (exId_str (by simp)) h1
  rw [h2] at this
  exact absurd this (by decide)

/-- C91: the same calls without privilege leave the identity as it was. -/
example : ∃ s' ws, idRun (fileAt 4096 (Spec.pwText [exRoot, exUser])) (fileAt 8192 (Spec.grText [exWheel, exUsers]))
      (exIdState ⟨12, 0, [3], false⟩) [.initgroups 100 [117#8] 7, .setgroups [9]] = .ok (s', ws) ∧
    s'.cred = (exIdState ⟨12, 0, [3], false⟩).cred :=
  C91_unprivileged (s := exIdState ⟨12, 0, [3], false⟩) exIdFiles (exIdFresh _) (by
      intro op hop
      simp only [List.mem_cons, List.not_mem_nil, or_false] at hop
      rcases hop with rfl | rfl
      all_goals first | trivial | exact exId_str (by simp)) (by
      simp [Spec.idSafe, Spec.IdOp.pwOp, Spec.idMind, Spec.idCall, Spec.pwSafeOp, Spec.pwNext, Spec.pwAnswer, Spec.cached, exIdState,
        Cred.proc, exRoot, exUser, Spec.decValue, Spec.groupsOf, exWheel, exUsers]) rfl

end Minilib

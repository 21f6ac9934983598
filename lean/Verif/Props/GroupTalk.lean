import Verif.Model.GroupWorld
import Verif.Props.Groups2
import Verif.Props.GroupSecrecy
/-
C78: group conversations with any number of members and groups.
-/
set_option linter.unusedSimpArgs false
namespace Verif
open GroupTalk (Room Outcome)

/-! ### Frames -/

theorem GStore.create_ne (C : Crypto) (d : GroupDraws) (st : GStore) {n n' : SenderKeyName} (h : n' ≠ n) : (st.create C d n).2.load n' = st.load n' := by
  simp only [GStore.create]
  cases st.load n with
  | err e => rfl
  | panic => rfl
  | ok r =>
    simp only
    obtain ⟨res, r'⟩ := groupCreate C d r
    cases r' with
    | none => rfl
    | some r' => exact GStore.load_save_ne _ _ h

theorem GStore.encrypt_ne (C : Crypto) (S : Ser SKStruct) (rand : Arr 64) (st : GStore) {n n' : SenderKeyName} (h : n' ≠ n) (pt : Bytes) :
    (st.encrypt C S rand n pt).2.load n' = st.load n' := by
  simp only [GStore.encrypt]
  cases st.load n with
  | err e => rfl
  | panic => rfl
  | ok r =>
    simp only
    obtain ⟨res, r', b⟩ := groupEncrypt C S rand r pt
    cases r' <;> cases b <;> first | rfl | exact GStore.load_save_ne _ _ h

theorem GStore.decrypt_ne (C : Crypto) (S : Ser SKStruct) (st : GStore) {n n' : SenderKeyName} (h : n' ≠ n) (m : SenderKeyMsg) :
    (st.decrypt C S n m).2.load n' = st.load n' := by
  simp only [GStore.decrypt]
  cases st.load n with
  | err e => rfl
  | panic => rfl
  | ok r =>
    simp only
    obtain ⟨res, r', b⟩ := groupDecrypt C S r m
    cases r' <;> cases b <;> first | rfl | exact GStore.load_save_ne _ _ h

theorem GStore.hear_ne (C : Crypto) (S : Ser SKStruct) (st : GStore) {n n' : SenderKeyName} (h : n' ≠ n) (b : Bytes) :
    (st.hear C S n b).2.load n' = st.load n' := by
  simp only [GStore.hear]
  cases newSenderKeyMessageFromBytes S b with
  | err e => rfl
  | panic => rfl
  | ok m => exact GStore.decrypt_ne C S st h m

theorem GStore.process_ne (st : GStore) {n n' : SenderKeyName} (h : n' ≠ n) (m : SKDMsg) : (st.process n m).2.load n' = st.load n' := by
  simp only [GStore.process]
  cases st.load n with
  | err e => rfl
  | panic => rfl
  | ok r => exact GStore.load_save_ne _ _ h

theorem GWorld.put_same (w : GWorld) (a : Addr) (st : GStore) : (w.put a st).store a = st := by simp [GWorld.put]
theorem GWorld.put_ne (w : GWorld) {a b : Addr} (h : b ≠ a) (st : GStore) : (w.put a st).store b = w.store b := by simp [GWorld.put, h]

/-- Only the record of one name in one store has changed. -/
theorem GWorld.put_load (w : GWorld) (a : Addr) (st : GStore) (n : SenderKeyName) (hst : ∀ n' ≠ n, st.load n' = (w.store a).load n') (b : Addr) (n' : SenderKeyName)
    (h : ¬(b = a ∧ n' = n)) : ((w.put a st).store b).load n' = (w.store b).load n' := by
  by_cases hb : b = a
  · subst hb
    rw [GWorld.put_same]
    exact hst n' (fun hn => h ⟨rfl, hn⟩)
  · rw [GWorld.put_ne w hb]

/-! ### The invariant -/

/-- What the world knows about an open line: its first chain key, key id and signing key. -/
structure LineKeys where
  ck : SChainKey
  id : UInt32
  k : Key32

/-- The bytes are message number `c` of the line, with this text. -/
def IsNote (C : Crypto) (S : Ser SKStruct) (K : LineKeys) (c : Nat) (text b : Bytes) : Prop :=
  ∃ (m : SenderKeyMsg) (body content : Bytes), newSenderKeyMessageFromBytes S b = .ok m ∧ m.keyId = K.id ∧ m.iteration.toNat = c ∧ m.ciphertext = some body ∧
    encryptCbc C none (some (groupKey C (K.ck.iter C c)).iv) (groupKey C (K.ck.iter C c)).cipherKey text = .ok body ∧
    m.serialize S = .ok content ∧ C.verify (C.basePub K.k) content m.sig = true

/-- The bytes are an invitation to the line from message `c` on. -/
def IsInvite (C : Crypto) (T : Ser SKDStruct) (K : LineKeys) (c : Nat) (b : Bytes) : Prop :=
  ∃ m : SKDMsg, newSKDMFromBytes T b = .ok m ∧ m.id = K.id ∧ m.iteration = (K.ck.iter C c).iteration ∧ m.chainKey.getD [] = (K.ck.iter C c).key ∧ m.signatureKey = C.basePub K.k

/-- A store holds a record that hears a line. -/
def Hears (C : Crypto) (K : LineKeys) (st : GStore) (n : SenderKeyName) (q : Nat) (win : Window) (c : Nat) : Prop :=
  ∃ r s, st.load n = .ok (some r) ∧ r.length = q ∧ r.find? (fun s => s.keyId == K.id) = some s ∧ s.signing.pub = C.basePub K.k ∧ GRefines C K.ck s win ∧ win.next ≤ c

/-- An open line. -/
structure OpenLine (C : Crypto) (S : Ser SKStruct) (T : Ser SKDStruct) (w : GWorld) (g : Room Addr SenderKeyName) (n : SenderKeyName) (c : Nat) (K : LineKeys) : Prop where
  zero : K.ck.iteration = 0
  keyLen : K.ck.key.length = 32
  clamped : IsClamped K.k
  small : c < 2 ^ 32
  own : (w.store n.sender).load n = .ok (some [⟨[], K.id, K.ck.iter C c, ⟨C.basePub K.k, some K.k⟩⟩])
  invites : ∀ (i c' : Nat), g.invites[i]? = some (n, c') → ∃ b, w.invites[i]? = some (n, b) ∧ c' ≤ c ∧ IsInvite C T K c' b
  notes : ∀ (i c' : Nat) (text : Bytes), g.notes[i]? = some (n, c', text) → ∃ b, w.wire[i]? = some (n, b) ∧ c' < c ∧ IsNote C S K c' text b
  ears : ∀ who, who ≠ n.sender → match g.ear who n with
    | none => (w.store who).load n = .ok none
    | some (q, win) => Hears C K (w.store who) n q win c
  invited : (∃ who, g.ear who n ≠ none) → ∃ (i c' : Nat), g.invites[i]? = some (n, c')

/-- The invariant for one line. -/
def LineInv (C : Crypto) (S : Ser SKStruct) (T : Ser SKDStruct) (w : GWorld) (g : Room Addr SenderKeyName) (n : SenderKeyName) : Prop :=
  g.ear n.sender n = none ∧
  match g.said n with
  | none => (∀ who, (w.store who).load n = .ok none ∧ g.ear who n = none) ∧ (∀ (i c : Nat), g.invites[i]? ≠ some (n, c)) ∧ ∀ (i c : Nat) (text : Bytes), g.notes[i]? ≠ some (n, c, text)
  | some c => ∃ K, OpenLine C S T w g n c K

structure RoomInv (C : Crypto) (S : Ser SKStruct) (T : Ser SKDStruct) (w : GWorld) (g : Room Addr SenderKeyName) : Prop where
  invites : w.invites.map (·.1) = g.invites.map (·.1)
  wire : w.wire.map (·.1) = g.notes.map (·.1)
  lines : ∀ n, LineInv C S T w g n

theorem names_get {α β : Type} {l : List (SenderKeyName × α)} {l' : List (SenderKeyName × β)} (h : l.map (·.1) = l'.map (·.1)) {i : Nat} {n : SenderKeyName} {x : β}
    (hx : l'[i]? = some (n, x)) : ∃ y, l[i]? = some (n, y) := by
  have : (l.map (·.1))[i]? = some n := by rw [h]; simp [hx]
  simp only [List.getElem?_map, Option.map_eq_some_iff] at this
  obtain ⟨⟨n', y⟩, h1, h2⟩ := this
  simp only at h2
  subst h2
  exact ⟨y, h1⟩

/-- What an event does to other lines than the one it is about: nothing. -/
theorem LineInv.other {C : Crypto} {S : Ser SKStruct} {T : Ser SKDStruct} {w w' : GWorld} {g g' : Room Addr SenderKeyName} {n : SenderKeyName} (h : LineInv C S T w g n)
    (hstore : ∀ who, (w'.store who).load n = (w.store who).load n) (hsaid : g'.said n = g.said n) (hear : ∀ who, g'.ear who n = g.ear who n)
    (hinv : ∀ (i : Nat) (b : Bytes), w.invites[i]? = some (n, b) → w'.invites[i]? = some (n, b)) (hwire : ∀ (i : Nat) (b : Bytes), w.wire[i]? = some (n, b) → w'.wire[i]? = some (n, b))
    (hginv : ∀ (i c : Nat), g'.invites[i]? = some (n, c) ↔ g.invites[i]? = some (n, c))
    (hgnotes : ∀ (i c : Nat) (text : Bytes), g'.notes[i]? = some (n, c, text) ↔ g.notes[i]? = some (n, c, text)) : LineInv C S T w' g' n := by
  obtain ⟨h0, h⟩ := h
  refine ⟨by rw [hear]; exact h0, ?_⟩
  rw [hsaid]
  cases hs : g.said n with
  | none =>
    rw [hs] at h
    obtain ⟨h1, h2, h3⟩ := h
    refine ⟨fun who => ?_, fun i c hc => h2 i c ((hginv i c).1 hc), fun i c text hc => h3 i c text ((hgnotes i c text).1 hc)⟩
    rw [hstore, hear]
    exact h1 who
  | some c =>
    rw [hs] at h
    obtain ⟨K, h⟩ := h
    refine ⟨K, h.zero, h.keyLen, h.clamped, h.small, by rw [hstore]; exact h.own, ?_, ?_, ?_, ?_⟩
    · intro i c' hi
      obtain ⟨b, h1, h2⟩ := h.invites i c' ((hginv i c').1 hi)
      exact ⟨b, hinv i b h1, h2⟩
    · intro i c' text hi
      obtain ⟨b, h1, h2⟩ := h.notes i c' text ((hgnotes i c' text).1 hi)
      exact ⟨b, hwire i b h1, h2⟩
    · intro who hw
      have := h.ears who hw
      rw [hear]
      cases he : g.ear who n with
      | none => rw [he] at this; simp only at this ⊢; rw [hstore]; exact this
      | some p =>
        obtain ⟨q, win⟩ := p
        rw [he] at this
        simp only [Hears] at this ⊢
        rw [hstore]
        exact this
    · rintro ⟨who, hw⟩
      rw [hear] at hw
      obtain ⟨i, c', hi⟩ := h.invited ⟨who, hw⟩
      exact ⟨i, c', (hginv i c').2 hi⟩

theorem append_get_ne {α : Type} {l : List (SenderKeyName × α)} {n n' : SenderKeyName} {x : α} (h : n' ≠ n) (i : Nat) (y : α) :
    (l ++ [(n, x)])[i]? = some (n', y) ↔ l[i]? = some (n', y) := by
  rw [List.getElem?_append]
  split
  · rfl
  · rename_i hi
    constructor
    · intro hy
      exfalso
      cases hj : i - l.length with
      | zero => rw [hj] at hy; simp at hy; exact h hy.1.symm
      | succ j => rw [hj] at hy; simp at hy
    · intro hy
      rw [List.getElem?_eq_none (by omega)] at hy
      simp at hy

theorem append_get_old {α : Type} {l : List α} {x y : α} {i : Nat} (h : l[i]? = some y) : (l ++ [x])[i]? = some y := by
  rw [List.getElem?_append_left (List.getElem?_eq_some_iff.1 h).1]
  exact h

theorem append_get_cases {α : Type} {l : List α} {x y : α} {i : Nat} (h : (l ++ [x])[i]? = some y) : l[i]? = some y ∨ (i = l.length ∧ y = x) := by
  rw [List.getElem?_append] at h
  split at h
  · exact .inl h
  · cases hj : i - l.length with
    | zero => rw [hj] at h; simp at h; exact .inr ⟨by omega, h.symm⟩
    | succ j => rw [hj] at h; simp at h

/-! ### The calls -/

theorem iter_key_length (C : Crypto) (ck : SChainKey) (h : ck.key.length = 32) (c : Nat) : (ck.iter C c).key.length = 32 := by
  cases c with
  | zero => exact h
  | succ c => exact (C.hmac _ _).len

theorem iter_iteration_nat (C : Crypto) (ck : SChainKey) (h : ck.iteration = 0) {c : Nat} (hc : c < 2 ^ 32) : (ck.iter C c).iteration.toNat = c := by
  rw [SChainKey.iter_iteration, h, UInt32.toNat_add, ofNat_toNat_mod]
  simp only [UInt32.toNat_zero]
  omega

theorem GStore.create_new {C : Crypto} {d : GroupDraws} {st : GStore} {n : SenderKeyName} (h : st.load n = .ok none) {x : Key32} (hd : d.signing = some x) :
    st.create C d n = (.ok (newSKDM d.id 0 d.chain.bytes (C.basePub (clamp x))), st.save n [⟨[], d.id, ⟨0, d.chain.bytes⟩, ⟨C.basePub (clamp x), some (clamp x)⟩⟩]) := by
  simp only [GStore.create, h, groupCreate, generateKeyPair, hd, GRec.setState]

theorem GStore.create_old {C : Crypto} {d : GroupDraws} {st : GStore} {n : SenderKeyName} {s : SKState} {rest : GRec} (h : st.load n = .ok (some (s :: rest))) :
    st.create C d n = (.ok (newSKDM s.keyId s.chain.iteration s.chain.key s.signing.pub), st) := by
  simp only [GStore.create, h, groupCreate]

/-- Writing an invitation to an open line. -/
theorem invite_bytes (C : Crypto) (T : Ser SKDStruct) (hT : StdSKD T) (K : LineKeys) (hl : K.ck.key.length = 32) (c : Nat) :
    ∃ b, (newSKDM K.id (K.ck.iter C c).iteration (K.ck.iter C c).key (C.basePub K.k)).serialize T = .ok b ∧ IsInvite C T K c b := by
  obtain ⟨b, h1, h2⟩ := C26_distribution_message T hT K.id (K.ck.iter C c).iteration (K.ck.iter C c).key (C.basePub K.k) (by rw [iter_key_length C K.ck hl]; omega)
  exact ⟨b, h1, _, h2, rfl, rfl, rfl, rfl⟩

/-- Using an invitation for the first time. -/
theorem group_process_first {C : Crypto} {T : Ser SKDStruct} {K : LineKeys} {c c' : Nat} {b : Bytes} (hb : IsInvite C T K c' b) (hz : K.ck.iteration = 0) (hc : c' ≤ c) (hs : c < 2 ^ 32)
    {st : GStore} {n : SenderKeyName} (hl : st.load n = .ok none) :
    ∃ m, newSKDMFromBytes T b = .ok m ∧ (st.process n m).1 = .ok () ∧ Hears C K (st.process n m).2 n 1 ⟨c', []⟩ c := by
  obtain ⟨m, h1, h2, h3, h4, h5⟩ := hb
  refine ⟨m, h1, by simp only [GStore.process, hl], ?_⟩
  simp only [GStore.process, hl, groupProcess, Option.getD_none, GRec.addState]
  rw [if_neg (by simp [groupMaxMessageKeys])]
  refine ⟨_, SKState.reloaded ⟨[], m.id, ⟨m.iteration, m.chainKey.getD []⟩, ⟨m.signatureKey, none⟩⟩, GStore.load_save _ _ _, rfl, ?_, ?_, ?_, hc⟩
  · simp [SKState.reloaded, h2]
  · simp [SKState.reloaded, h5]
  · refine ⟨by rw [hz]; exact Nat.zero_le _, ?_, rfl, by simp, by simp, by simp, by simp⟩
    simp only [SKState.reloaded, h3, h4, hz, UInt32.toNat_zero, Nat.sub_zero]

/-- Using a further invitation. -/
theorem group_process_again {C : Crypto} {T : Ser SKDStruct} {K : LineKeys} {c c' q : Nat} {b : Bytes} {win : Window} (hb : IsInvite C T K c' b) {st : GStore} {n : SenderKeyName}
    (hh : Hears C K st n q win c) (hq : q < 2000) :
    ∃ m, newSKDMFromBytes T b = .ok m ∧ (st.process n m).1 = .ok () ∧ Hears C K (st.process n m).2 n (q + 1) win c := by
  obtain ⟨m, h1, h2, h3, h4, h5⟩ := hb
  obtain ⟨r, s, hl, hlen, hf, hp, hr, hn⟩ := hh
  refine ⟨m, h1, by simp only [GStore.process, hl], ?_⟩
  simp only [GStore.process, hl, groupProcess, Option.getD_some, GRec.addState]
  rw [if_neg (by simp only [groupMaxMessageKeys, List.length_append, List.length_singleton]; omega)]
  refine ⟨_, s, GStore.load_save _ _ _, by simp [hlen], ?_, hp, hr, hn⟩
  rw [List.map_append, reloaded_map (GStore.loaded hl), List.find?_append, hf]
  rfl

/-- Saying something on an open line. -/
theorem say_bytes (C : Crypto) (S : Ser SKStruct) (hSer : StdSK S) (hS : C.SigLaw) (K : LineKeys) (hz : K.ck.iteration = 0) (hk : IsClamped K.k) {c : Nat} (hc : c < 2 ^ 32)
    {st : GStore} {n : SenderKeyName} (hl : st.load n = .ok (some [⟨[], K.id, K.ck.iter C c, ⟨C.basePub K.k, some K.k⟩⟩])) (rand : Arr 64) (text : Bytes) (ht : text.length < 2 ^ 63) :
    ∃ m b, (st.encrypt C S rand n text).1 = .ok m ∧ m.signedSerialize S = .ok b ∧ IsNote C S K c text b ∧
      (st.encrypt C S rand n text).2.load n = .ok (some [⟨[], K.id, K.ck.iter C (c + 1), ⟨C.basePub K.k, some K.k⟩⟩]) := by
  obtain ⟨m, body, content, h1, h2, h3, h4, h5, h6, h7, h8, h9, h10, h11⟩ := GStore.encrypt_ok C S hSer st n _ [] K.k hl rfl text rand
  obtain ⟨b, hb, hd⟩ := hSer.roundtrip m.keyId m.iteration m.ciphertext (C.sign K.k content rand).bytes (C.sign K.k content rand).len (by
    rw [h4]; intro x hx; cases hx; omega)
  have hparse : newSenderKeyMessageFromBytes S b = .ok m := by
    simp only [newSenderKeyMessageFromBytes, hd, Res.bind_ok, newSenderKeyMessageFromStruct]
    rw [checkVersion_ok.2 (by decide), h4]
    simp only [Res.bind_ok, Res.ok.injEq]
    obtain ⟨a1, a2, a3, a4, a5⟩ := m
    simp only at h4 h9 h10
    simp [h4, h9, h10]
  refine ⟨m, b, h1, ?_, ⟨m, body, content, hparse, h2, ?_, h4, h6, h7, ?_⟩, h11⟩
  · simp only [SenderKeyMsg.signedSerialize]
    rw [h9, h10, hb]
  · rw [h3]; exact iter_iteration_nat C K.ck hz hc
  · rw [h8]; exact hS _ _ _ hk

/-- Hearing a message of a line. -/
theorem hear_note {C : Crypto} {S : Ser SKStruct} (hA : C.AesLaw) {K : LineKeys} (hz : K.ck.iteration = 0) {c c' q : Nat} (hs : c < 2 ^ 32) (hc : c' < c) {text b : Bytes}
    (hb : IsNote C S K c' text b) {st : GStore} {n : SenderKeyName} {win : Window} (hh : Hears C K st n q win c) :
    match Window.accept GroupTalk.limits win c' with
    | none => (∃ e, (st.hear C S n b).1 = .err e) ∧ (st.hear C S n b).2 = st
    | some (_, win') => (st.hear C S n b).1 = .ok text ∧ Hears C K (st.hear C S n b).2 n q win' c := by
  obtain ⟨m, body, content, h1, h2, h3, h4, h5, h6, h7⟩ := hb
  obtain ⟨r, s, hl, hlen, hf, hp, hr, hn⟩ := hh
  have hrecv : st.hear C S n b = st.decrypt C S n m := by rw [GStore.hear, h1]
  rw [hrecv]
  have hfm : r.find? (fun s => s.keyId == m.keyId) = some s := by rw [h2]; exact hf
  obtain ⟨v1, v2⟩ := GStore.decrypt_verified C S hl hfm h6 (by rw [hp]; exact h7)
  have href := getSenderKey_refines hr m.iteration
  rw [h3] at href
  show match Window.accept groupLimits win c' with
    | none => _
    | some (_, win') => _
  cases ha : Window.accept groupLimits win c' with
  | none =>
    rw [ha] at href
    simp only at href ⊢
    rw [v1 _ _ href]
    exact ⟨⟨_, rfl⟩, rfl⟩
  | some pw =>
    obtain ⟨p, win'⟩ := pw
    rw [ha] at href
    simp only at href ⊢
    obtain ⟨s', hg, hw', hid, hsg, -⟩ := href
    have hnx := accept_next ha (by omega) hr.below
    rw [hnx.1, hz, UInt32.toNat_zero, Nat.sub_zero] at hg
    have hdec := decrypt_encryptCbc C hA _ _ _ h5
    obtain ⟨d1, d2⟩ := v2 _ s' text hg (by rw [h4]; exact hdec)
    refine ⟨by rw [d1], _, s', d2, by rw [length_modifyFirst, hlen], ?_, by rw [hsg]; exact hp, hw', by omega⟩
    have hsid : s.keyId = K.id := by simpa using List.find?_some hf
    rw [h2, find?_modifyFirst _ _ _ (by intro a _; simp [hid, hsid]), hf]
    rfl

/-- Hearing other bytes. -/
theorem hear_noise {C : Crypto} {S : Ser SKStruct} {K : LineKeys} {c q : Nat} {b : Bytes} (hb : NotSignedBy C S K.id (C.basePub K.k) b) {st : GStore} {n : SenderKeyName} {win : Window}
    (hh : Hears C K st n q win c) : Hears C K (st.hear C S n b).2 n q win c := by
  obtain ⟨r, s, hl, hlen, hf, hp, hr, hn⟩ := hh
  obtain ⟨r', h1, h2⟩ := recvBytes_other (C := C) (S := S) hl hf (by rw [hp]; exact hb)
  refine ⟨r', s, h1, ?_, h2, hp, hr, hn⟩
  revert h1
  simp only [recvBytes]
  cases newSenderKeyMessageFromBytes S b with
  | err e => simp only; intro h1; rw [hl] at h1; cases h1; exact hlen
  | panic => simp only; intro h1; rw [hl] at h1; cases h1; exact hlen
  | ok m =>
    simp only
    rcases GStore.decrypt_cases C S hl m with ⟨e1, -⟩ | ⟨s1, body, mk, s', pt, -, -, -, -, -, -, -, e8⟩
    · rw [e1]; intro h1; rw [hl] at h1; cases h1; exact hlen
    · rw [e8]; intro h1; cases h1; rw [length_modifyFirst, hlen]

/-! ### Events -/

/-- The outcome the specification asks for. -/
def GOut.Is : Outcome → GOut → Prop
  | .done, o => o = .done (.ok ())
  | .got text, o => o = .heard (.ok text)
  | .rejected, o => ∃ e, o = .heard (.err e)
  | .whatever, _ => True

section
variable {C : Crypto} {S : Ser SKStruct} {T : Ser SKDStruct} {w : GWorld} {g g' : Room Addr SenderKeyName} {o : Outcome} {d : GroupDraws} {rand : Arr 64}

theorem RoomInv.invite (hT : StdSKD T) (h : RoomInv C S T w g) {n : SenderKeyName} (hd : d.signing ≠ none)
    (hs : g.step SenderKeyName.sender (.invite n) = some (o, g')) :
    GOut.Is o (w.step C S T d rand (.invite n)).1 ∧ RoomInv C S T (w.step C S T d rand (.invite n)).2 g' := by
  simp only [Room.step, Option.some.injEq, Prod.mk.injEq] at hs
  obtain ⟨rfl, rfl⟩ := hs
  -- what the call does, and the state of the line afterwards
  have main : ∃ (m : SKDMsg) (K : LineKeys) (st : GStore), (w.store n.sender).create C d n = (.ok m, st) ∧ K.ck.iteration = 0 ∧ K.ck.key.length = 32 ∧ IsClamped K.k ∧
      (g.said n).getD 0 < 2 ^ 32 ∧ st.load n = .ok (some [⟨[], K.id, K.ck.iter C ((g.said n).getD 0), ⟨C.basePub K.k, some K.k⟩⟩]) ∧
      m = newSKDM K.id (K.ck.iter C ((g.said n).getD 0)).iteration (K.ck.iter C ((g.said n).getD 0)).key (C.basePub K.k) ∧
      (g.said n = none ∨ OpenLine C S T w g n ((g.said n).getD 0) K) := by
    have hl := (h.lines n).2
    cases hsd : g.said n with
    | none =>
      rw [hsd] at hl
      cases hx : d.signing with
      | none => exact absurd hx hd
      | some x =>
        refine ⟨_, ⟨⟨0, d.chain.bytes⟩, d.id, clamp x⟩, _, GStore.create_new (hl.1 n.sender).1 hx, rfl, d.chain.len, clamp_isClamped x, by simp, ?_, rfl, .inl rfl⟩
        exact GStore.load_save_loaded _ _ _ (by intro s hs; simp at hs; subst hs; exact ⟨_, rfl⟩)
    | some c =>
      rw [hsd] at hl
      obtain ⟨K, hK⟩ := hl
      exact ⟨_, K, _, GStore.create_old hK.own, hK.zero, hK.keyLen, hK.clamped, hK.small, hK.own, rfl, .inr hK⟩
  obtain ⟨m, K, st, hcr, k1, k2, k3, k4, k5, rfl, hK⟩ := main
  obtain ⟨b, hb, hinv⟩ := invite_bytes C T hT K k2 ((g.said n).getD 0)
  have hne : ∀ n' ≠ n, st.load n' = (w.store n.sender).load n' := by
    intro n' hn'
    have := GStore.create_ne C d (w.store n.sender) hn'
    rw [hcr] at this
    exact this
  simp only [GWorld.step, hcr, Res.bind_ok, hb]
  refine ⟨rfl, ?_, ?_, ?_⟩
  · simp [GWorld.put, h.invites, Room.setSaid]
  · simp [GWorld.put, h.wire, Room.setSaid]
  · intro n'
    by_cases hn : n' = n
    · subst hn
      obtain ⟨h0, hl⟩ := h.lines n'
      refine ⟨h0, ?_⟩
      simp only [Room.setSaid, if_true]
      have hown : ((w.put n'.sender st).store n'.sender).load n' = .ok (some [⟨[], K.id, K.ck.iter C ((g.said n').getD 0), ⟨C.basePub K.k, some K.k⟩⟩]) := by
        rw [GWorld.put_same]; exact k5
      have hlast : (w.invites ++ [(n', b)])[g.invites.length]? = some (n', b) := by
        have : w.invites.length = g.invites.length := by simpa using congrArg List.length h.invites
        rw [← this]; simp
      refine ⟨K, k1, k2, k3, k4, hown, ?_, ?_, ?_, fun _ => ⟨g.invites.length, (g.said n').getD 0, by simp⟩⟩
      · intro i c' hi
        rcases append_get_cases (l := g.invites) hi with hi | ⟨hlen, hi⟩
        · rcases hK with hK | hK
          · rw [hK] at hl; exact absurd hi (hl.2.1 i c')
          · obtain ⟨b', h1, h2⟩ := hK.invites i c' hi
            exact ⟨b', append_get_old h1, h2⟩
        · rw [hlen]
          cases hi
          exact ⟨b, hlast, Nat.le_refl _, hinv⟩
      · intro i c' text hi
        rcases hK with hK | hK
        · rw [hK] at hl; exact absurd hi (hl.2.2 i c' text)
        · exact hK.notes i c' text hi
      · intro who hw
        have hst : ((w.put n'.sender st).store who).load n' = (w.store who).load n' := by rw [GWorld.put_ne w hw]
        show match g.ear who n' with
          | none => ((w.put n'.sender st).store who).load n' = .ok none
          | some (q, win) => Hears C K ((w.put n'.sender st).store who) n' q win ((g.said n').getD 0)
        simp only [Hears, hst]
        rcases hK with hK | hK
        · rw [hK] at hl
          rw [(hl.1 who).2]
          exact (hl.1 who).1
        · have := hK.ears who hw
          simp only [Hears] at this
          exact this
    · refine (h.lines n').other ?_ ?_ (fun _ => rfl) ?_ (fun _ _ hx => hx) ?_ (fun _ _ _ => Iff.rfl)
      · intro who
        exact w.put_load n.sender st n hne who n' (fun hx => hn hx.2)
      · simp [Room.setSaid, hn]
      · intro i b' hi; exact append_get_old hi
      · intro i c; exact append_get_ne hn i c

theorem RoomInv.say (hSer : StdSK S) (hS : C.SigLaw) (h : RoomInv C S T w g) {n : SenderKeyName} {text : Bytes} (ht : text.length < 2 ^ 63)
    (hs : g.step SenderKeyName.sender (.say n text) = some (o, g')) :
    GOut.Is o (w.step C S T d rand (.say n text)).1 ∧ RoomInv C S T (w.step C S T d rand (.say n text)).2 g' := by
  simp only [Room.step] at hs
  cases hsd : g.said n with
  | none => simp [hsd] at hs
  | some c =>
    simp only [hsd] at hs
    split at hs
    · simp at hs
    rename_i hc
    simp only [Option.some.injEq, Prod.mk.injEq] at hs
    obtain ⟨rfl, rfl⟩ := hs
    have hl := h.lines n
    obtain ⟨h0, hl⟩ := hl
    rw [hsd] at hl
    obtain ⟨K, hK⟩ := hl
    obtain ⟨m, b, e1, e2, e3, e4⟩ := say_bytes C S hSer hS K hK.zero hK.clamped hK.small hK.own rand text ht
    have hne := fun n' hn' => GStore.encrypt_ne C S rand (w.store n.sender) (n := n) (n' := n') hn' text
    simp only [GWorld.step, e1, Res.bind_ok, e2]
    generalize (GStore.encrypt C S rand (w.store n.sender) n text).2 = st at *
    refine ⟨rfl, ?_, ?_, ?_⟩
    · simp [GWorld.put, h.invites, Room.setSaid]
    · simp [GWorld.put, h.wire, Room.setSaid]
    · intro n'
      by_cases hn : n' = n
      · subst hn
        refine ⟨h0, ?_⟩
        simp only [Room.setSaid, if_true]
        have hlast : (w.wire ++ [(n', b)])[g.notes.length]? = some (n', b) := by
          have : w.wire.length = g.notes.length := by simpa using congrArg List.length h.wire
          rw [← this]; simp
        refine ⟨K, hK.zero, hK.keyLen, hK.clamped, by omega, ?_, ?_, ?_, ?_, hK.invited⟩
        · show ((w.put n'.sender st).store n'.sender).load n' = _
          rw [GWorld.put_same]; exact e4
        · intro i c' hi
          obtain ⟨b', h1, h2, h3⟩ := hK.invites i c' hi
          exact ⟨b', h1, by omega, h3⟩
        · intro i c' tx hi
          rcases append_get_cases (l := g.notes) hi with hi | ⟨hlen, hi⟩
          · obtain ⟨b', h1, h2, h3⟩ := hK.notes i c' tx hi
            exact ⟨b', append_get_old h1, by omega, h3⟩
          · rw [hlen]
            cases hi
            exact ⟨b, hlast, by omega, e3⟩
        · intro who hw
          have hst : ((w.put n'.sender st).store who).load n' = (w.store who).load n' := by rw [GWorld.put_ne w hw]
          show match g.ear who n' with
            | none => ((w.put n'.sender st).store who).load n' = .ok none
            | some (q, win) => Hears C K ((w.put n'.sender st).store who) n' q win (c + 1)
          have := hK.ears who hw
          simp only [Hears, hst] at this ⊢
          revert this
          cases g.ear who n' with
          | none => exact fun this => this
          | some p =>
            intro this
            obtain ⟨r, s, a1, a2, a3, a4, a5, a6⟩ := this
            exact ⟨r, s, a1, a2, a3, a4, a5, by omega⟩
      · refine (h.lines n').other ?_ ?_ (fun _ => rfl) (fun _ _ hx => hx) ?_ (fun _ _ => Iff.rfl) ?_
        · intro who
          exact w.put_load n.sender st n hne who n' (fun hx => hn hx.2)
        · simp [Room.setSaid, hn]
        · intro i b' hi; exact append_get_old hi
        · intro i c tx; exact append_get_ne hn i (c, tx)

/-- One receiver's record of one line changes, and so does its window. -/
theorem RoomInv.ear (h : RoomInv C S T w g) {n : SenderKeyName} {who : Addr} (hw : who ≠ n.sender) {c : Nat} (hsd : g.said n = some c) {K : LineKeys} (hK : OpenLine C S T w g n c K)
    {st : GStore} {q : Nat} {win : Window} (hne : ∀ n' ≠ n, st.load n' = (w.store who).load n') (hst : Hears C K st n q win c) (hinv : ∃ (i c' : Nat), g.invites[i]? = some (n, c')) :
    RoomInv C S T (w.put who st) (g.setEar who n (q, win)) := by
  refine ⟨h.invites, h.wire, fun n' => ?_⟩
  by_cases hn : n' = n
  · subst hn
    refine ⟨?_, ?_⟩
    · simp only [Room.setEar]
      rw [if_neg (fun hx => hw hx.1.symm)]
      exact (h.lines n').1
    · show match g.said n' with
        | none => _
        | some c => ∃ K, OpenLine C S T _ _ n' c K
      rw [hsd]
      refine ⟨K, hK.zero, hK.keyLen, hK.clamped, hK.small, ?_, hK.invites, hK.notes, ?_, fun _ => hinv⟩
      · rw [GWorld.put_ne w (Ne.symm hw)]; exact hK.own
      · intro who' hw'
        by_cases hwho : who' = who
        · subst hwho
          simp only [Room.setEar, GWorld.put_same, and_self, if_true]
          exact hst
        · have he : (g.setEar who n' (q, win)).ear who' n' = g.ear who' n' := by simp [Room.setEar, hwho]
          rw [he, GWorld.put_ne w hwho]
          exact hK.ears who' hw'
  · refine (h.lines n').other ?_ rfl ?_ (fun _ _ hx => hx) (fun _ _ hx => hx) (fun _ _ => Iff.rfl) (fun _ _ _ => Iff.rfl)
    · intro x
      exact w.put_load who st n hne x n' (fun hx => hn hx.2)
    · intro x
      simp only [Room.setEar, if_neg (fun hx : x = who ∧ n' = n => hn hx.2)]

theorem setEar_self {who : Addr} {n : SenderKeyName} {e : Nat × Window} (he : g.ear who n = some e) : g.setEar who n e = g := by
  obtain ⟨a, b, c, f⟩ := g
  simp only [Room.setEar, Room.mk.injEq, true_and]
  funext x y
  split
  · next hx => rw [hx.1, hx.2]; exact he.symm
  · rfl

theorem RoomInv.accept (h : RoomInv C S T w g) {who : Addr} {i : Nat} (hs : g.step SenderKeyName.sender (.accept who i) = some (o, g')) :
    GOut.Is o (w.step C S T d rand (.accept who i)).1 ∧ RoomInv C S T (w.step C S T d rand (.accept who i)).2 g' := by
  simp only [Room.step] at hs
  cases hi : g.invites[i]? with
  | none => simp [hi] at hs
  | some x =>
    obtain ⟨n, c'⟩ := x
    simp only [hi] at hs
    split at hs
    · simp at hs
    rename_i hw
    obtain ⟨-, hl⟩ := h.lines n
    cases hsd : g.said n with
    | none => rw [hsd] at hl; exact absurd hi (hl.2.1 i c')
    | some c =>
      rw [hsd] at hl
      obtain ⟨K, hK⟩ := hl
      obtain ⟨b, hb, hc, hinv⟩ := hK.invites i c' hi
      have hear := hK.ears who hw
      cases he : g.ear who n with
      | none =>
        rw [he] at hs hear
        simp only [Option.some.injEq, Prod.mk.injEq] at hs hear
        obtain ⟨rfl, rfl⟩ := hs
        obtain ⟨m, p1, p2, p3⟩ := group_process_first hinv hK.zero hc hK.small hear
        simp only [GWorld.step, hb, p1]
        exact ⟨by rw [p2]; rfl, h.ear hw hsd hK (fun n' hn' => GStore.process_ne _ hn' m) p3 ⟨i, c', hi⟩⟩
      | some x =>
        obtain ⟨q, win⟩ := x
        rw [he] at hs hear
        simp only at hs hear
        split at hs
        · simp at hs
        rename_i hq
        simp only [Option.some.injEq, Prod.mk.injEq] at hs
        obtain ⟨rfl, rfl⟩ := hs
        obtain ⟨m, p1, p2, p3⟩ := group_process_again hinv hear (by omega)
        simp only [GWorld.step, hb, p1]
        exact ⟨by rw [p2]; rfl, h.ear hw hsd hK (fun n' hn' => GStore.process_ne _ hn' m) p3 ⟨i, c', hi⟩⟩

theorem RoomInv.deliver (hA : C.AesLaw) (h : RoomInv C S T w g) {who : Addr} {i : Nat} (hs : g.step SenderKeyName.sender (.deliver who i) = some (o, g')) :
    GOut.Is o (w.step C S T d rand (.deliver who i)).1 ∧ RoomInv C S T (w.step C S T d rand (.deliver who i)).2 g' := by
  simp only [Room.step] at hs
  cases hi : g.notes[i]? with
  | none => simp [hi] at hs
  | some x =>
    obtain ⟨n, c', text⟩ := x
    simp only [hi] at hs
    obtain ⟨h0, hl⟩ := h.lines n
    cases hsd : g.said n with
    | none => rw [hsd] at hl; exact absurd hi (hl.2.2 i c' text)
    | some c =>
      rw [hsd] at hl
      obtain ⟨K, hK⟩ := hl
      obtain ⟨b, hb, hc, hnote⟩ := hK.notes i c' text hi
      cases he : g.ear who n with
      | none => simp [he] at hs
      | some x =>
        obtain ⟨q, win⟩ := x
        have hw : who ≠ n.sender := by intro hx; rw [hx, h0] at he; simp at he
        have hear := hK.ears who hw
        rw [he] at hs hear
        simp only at hs hear
        have hh := hear_note hA hK.zero hK.small hc hnote hear
        have hinv := hK.invited ⟨who, by rw [he]; simp⟩
        have hne := fun n' hn' => GStore.hear_ne C S (w.store who) (n := n) (n' := n') hn' b
        simp only [GWorld.step, hb]
        cases ha : Window.accept GroupTalk.limits win c' with
        | none =>
          rw [ha] at hs hh
          simp only [Option.some.injEq, Prod.mk.injEq] at hs hh
          obtain ⟨rfl, rfl⟩ := hs
          obtain ⟨⟨e, h1⟩, h2⟩ := hh
          refine ⟨⟨e, by rw [h1]⟩, ?_⟩
          rw [← setEar_self he]
          exact h.ear hw hsd hK hne (by rw [h2]; exact hear) hinv
        | some pw =>
          rw [ha] at hs hh
          simp only [Option.some.injEq, Prod.mk.injEq] at hs hh
          obtain ⟨rfl, rfl⟩ := hs
          obtain ⟨h1, h2⟩ := hh
          exact ⟨by rw [h1]; rfl, h.ear hw hsd hK hne h2 hinv⟩

theorem RoomInv.noise (h : RoomInv C S T w g) {who : Addr} {n : SenderKeyName} {b : Bytes}
    (hb : ∀ x ∈ w.invites, x.1 = n → ∀ m, newSKDMFromBytes T x.2 = .ok m → NotSignedBy C S m.id m.signatureKey b)
    (hs : g.step SenderKeyName.sender (.noise who n b) = some (o, g')) :
    GOut.Is o (w.step C S T d rand (.noise who n b)).1 ∧ RoomInv C S T (w.step C S T d rand (.noise who n b)).2 g' := by
  simp only [Room.step] at hs
  split at hs
  · simp at hs
  rename_i hw
  simp only [Option.some.injEq, Prod.mk.injEq] at hs
  obtain ⟨rfl, rfl⟩ := hs
  refine ⟨trivial, ?_⟩
  have hne := fun n' hn' => GStore.hear_ne C S (w.store who) (n := n) (n' := n') hn' b
  simp only [GWorld.step]
  -- without a record nothing happens
  have hnone : (w.store who).load n = .ok none → RoomInv C S T (w.put who ((w.store who).hear C S n b).2) g := by
    intro hl
    have : (w.put who ((w.store who).hear C S n b).2) = w := by
      have hsame : ((w.store who).hear C S n b).2 = w.store who := by
        simp only [GStore.hear]
        cases newSenderKeyMessageFromBytes S b with
        | err e => rfl
        | panic => rfl
        | ok m => simp only [GStore.decrypt, hl, groupDecrypt]
      rw [hsame]
      obtain ⟨st, iv, wr⟩ := w
      simp only [GWorld.put, GWorld.mk.injEq, and_self, and_true]
      funext x
      split
      · next hx => rw [hx]
      · rfl
    rw [this]
    exact h
  obtain ⟨h0, hl⟩ := h.lines n
  cases hsd : g.said n with
  | none => rw [hsd] at hl; exact hnone (hl.1 who).1
  | some c =>
    rw [hsd] at hl
    obtain ⟨K, hK⟩ := hl
    have hear := hK.ears who hw
    cases he : g.ear who n with
    | none => rw [he] at hear; exact hnone hear
    | some x =>
      obtain ⟨q, win⟩ := x
      rw [he] at hear
      simp only at hear
      obtain ⟨i, c', hi⟩ := hK.invited ⟨who, by rw [he]; simp⟩
      obtain ⟨b', hb', -, m, m1, m2, -, -, m5⟩ := hK.invites i c' hi
      have hns := hb (n, b') (List.mem_of_getElem? hb') rfl m m1
      rw [m2, m5] at hns
      rw [← setEar_self he]
      exact h.ear hw hsd hK hne (hear_noise hns hear) ⟨i, c', hi⟩

end

/-! ### C78 -/

/-- Each outcome is what the specification asks for. -/
def GOutsAre : List Outcome → List GOut → Prop
  | [], [] => True
  | o :: os, x :: xs => GOut.Is o x ∧ GOutsAre os xs
  | _, _ => False

theorem GWorld.step_invites (C : Crypto) (S : Ser SKStruct) (T : Ser SKDStruct) (d : GroupDraws) (rand : Arr 64) (w : GWorld) (e : GroupTalk.Event Addr SenderKeyName)
    {x : SenderKeyName × Bytes} (hx : x ∈ w.invites) : x ∈ (w.step C S T d rand e).2.invites := by
  cases e with
  | invite n =>
    simp only [GWorld.step]
    generalize (GStore.create C d (w.store n.sender) n).1.bind _ = r
    cases r with
    | ok b => exact List.mem_append_left _ hx
    | err e => exact hx
    | panic => exact hx
  | say n text =>
    simp only [GWorld.step]
    generalize (GStore.encrypt C S rand (w.store n.sender) n text).1.bind _ = r
    cases r <;> exact hx
  | accept who i =>
    simp only [GWorld.step]
    cases w.invites[i]? with
    | none => exact hx
    | some y =>
      obtain ⟨n, b⟩ := y
      simp only
      cases newSKDMFromBytes T b <;> exact hx
  | deliver who i =>
    simp only [GWorld.step]
    cases w.wire[i]? with
    | none => exact hx
    | some y => exact hx
  | noise who n b => exact hx

theorem GWorld.run_invites (C : Crypto) (S : Ser SKStruct) (T : Ser SKDStruct) (draws : Nat → GroupDraws) (rand : Nat → Arr 64) (evs : List (GroupTalk.Event Addr SenderKeyName)) (t : Nat)
    (w : GWorld) {x : SenderKeyName × Bytes} (hx : x ∈ w.invites) : x ∈ (w.run C S T draws rand t evs).2.invites := by
  induction evs generalizing t w with
  | nil => exact hx
  | cons e es ih => exact ih _ _ (GWorld.step_invites C S T _ _ w e hx)

theorem RoomInv.run {C : Crypto} {S : Ser SKStruct} {T : Ser SKDStruct} (hSer : StdSK S) (hT : StdSKD T) (hA : C.AesLaw) (hS : C.SigLaw) (draws : Nat → GroupDraws)
    (hd : ∀ t, (draws t).signing ≠ none) (rand : Nat → Arr 64) (evs : List (GroupTalk.Event Addr SenderKeyName)) (t : Nat) (w : GWorld) (g : Room Addr SenderKeyName) (h : RoomInv C S T w g)
    (hlen : ∀ n text, GroupTalk.Event.say n text ∈ evs → text.length < 2 ^ 63)
    (hnoise : ∀ who n b, GroupTalk.Event.noise who n b ∈ evs → ∀ x ∈ (w.run C S T draws rand t evs).2.invites, x.1 = n → ∀ m, newSKDMFromBytes T x.2 = .ok m →
      NotSignedBy C S m.id m.signatureKey b)
    (outs : List Outcome) (ho : g.run SenderKeyName.sender evs = some outs) : GOutsAre outs (w.run C S T draws rand t evs).1 := by
  induction evs generalizing t w g outs with
  | nil =>
    simp only [Room.run, Option.some.injEq] at ho
    subst ho
    trivial
  | cons e es ih =>
    simp only [Room.run] at ho
    cases hs : g.step SenderKeyName.sender e with
    | none => simp [hs] at ho
    | some x =>
      obtain ⟨o, g'⟩ := x
      simp only [hs] at ho
      cases hr : g'.run SenderKeyName.sender es with
      | none => simp [hr] at ho
      | some os =>
        simp only [hr, Option.map_some, Option.some.injEq] at ho
        subst ho
        have step : GOut.Is o (w.step C S T (draws t) (rand t) e).1 ∧ RoomInv C S T (w.step C S T (draws t) (rand t) e).2 g' := by
          cases e with
          | invite n => exact h.invite hT (hd t) hs
          | accept who i => exact h.accept hs
          | say n text => exact h.say hSer hS (hlen n text List.mem_cons_self) hs
          | deliver who i => exact h.deliver hA hs
          | noise who n b =>
            refine h.noise ?_ hs
            intro x hx
            exact hnoise who n b List.mem_cons_self x (GWorld.run_invites C S T draws rand (.noise who n b :: es) t w hx)
        exact ⟨step.1, ih (t + 1) _ g' step.2 (fun n text ht => hlen n text (List.mem_cons_of_mem _ ht))
          (fun who n b hb => hnoise who n b (List.mem_cons_of_mem _ hb)) os hr⟩

/-- **C78.** Any number of users, each with its own sender key store, in any number of groups, with either serializer.  Over any schedule of: writing distribution messages, processing
them (any of those written, any number of times up to 2000), sending, receiving any message sent so far in any order and any number of times, and receiving arbitrary bytes not signed
with the key of the sender they are attributed to: every call ends as the specification (Spec/GroupTalk) says.  In particular a member who processed a distribution message decrypts
every message of that sender in that group from then on, to exactly its text, within its receive window, whatever happens in between on the other lines. -/
theorem C78_group_conversation (C : Crypto) (S : Ser SKStruct) (hSer : StdSK S) (T : Ser SKDStruct) (hT : StdSKD T) (hA : C.AesLaw) (hS : C.SigLaw) (w : GWorld)
    (hw : (∀ who n, (w.store who).load n = .ok none) ∧ w.invites = [] ∧ w.wire = [])
    (draws : Nat → GroupDraws) (hd : ∀ t, (draws t).signing ≠ none) (rand : Nat → Arr 64) (evs : List (GroupTalk.Event Addr SenderKeyName))
    (hlen : ∀ n text, GroupTalk.Event.say n text ∈ evs → text.length < 2 ^ 63)
    (hnoise : ∀ who n b, GroupTalk.Event.noise who n b ∈ evs → ∀ x ∈ (w.run C S T draws rand 0 evs).2.invites, x.1 = n → ∀ m, newSKDMFromBytes T x.2 = .ok m →
      NotSignedBy C S m.id m.signatureKey b)
    (outs : List Outcome) (ho : Room.start.run SenderKeyName.sender evs = some outs) :
    GOutsAre outs (w.run C S T draws rand 0 evs).1 := by
  refine RoomInv.run hSer hT hA hS draws hd rand evs 0 w Room.start ⟨?_, ?_, ?_⟩ hlen hnoise outs ho
  · rw [hw.2.1]; rfl
  · rw [hw.2.2]; rfl
  · intro n
    exact ⟨rfl, fun who => ⟨hw.1 who n, rfl⟩, fun i c => by simp [Room.start], fun i c text => by simp [Room.start]⟩

section
open Toy

/-- Three members, two groups. -/
def gwAda : Addr := ⟨"ada", 1⟩
def gwBen : Addr := ⟨"ben", 1⟩
def gwCid : Addr := ⟨"cid", 2⟩
def gwWorld : GWorld := ⟨fun _ => GStore.empty, [], []⟩
def gwAdaX : SenderKeyName := ⟨"x", gwAda⟩
def gwBenX : SenderKeyName := ⟨"x", gwBen⟩
def gwAdaY : SenderKeyName := ⟨"y", gwAda⟩
def gwDraws (t : Nat) : GroupDraws := gDraws (UInt8.ofNat (8 * t + 3)) (UInt32.ofNat (70 + t))
/-- Messages overtake each other, are repeated, a member joins late, an invitation is used twice, and garbage arrives. -/
def gwEvents : List (GroupTalk.Event Addr SenderKeyName) :=
  [.invite gwAdaX, .accept gwBen 0, .say gwAdaX [1], .say gwAdaX [2, 2], .deliver gwBen 1, .invite gwAdaX, .accept gwCid 1, .deliver gwCid 0, .say gwAdaX [3],
   .invite gwBenX, .accept gwAda 2, .say gwBenX [7], .deliver gwAda 3, .deliver gwBen 0, .deliver gwBen 0, .deliver gwCid 2, .accept gwBen 0, .deliver gwBen 2,
   .invite gwAdaY, .accept gwCid 3, .say gwAdaY [9], .deliver gwCid 4, .noise gwBen gwAdaX [1, 2, 3]]
def gwOuts : List Outcome :=
  [.done, .done, .done, .done, .got [2, 2], .done, .done, .rejected, .done, .done, .done, .done, .got [7], .got [1], .rejected, .got [3], .done, .got [3],
   .done, .done, .done, .got [9], .whatever]

theorem gw_spec : Room.start.run SenderKeyName.sender gwEvents = some gwOuts := by decide +kernel

set_option maxRecDepth 100000 in
/-- Non-vacuity of C78: the hypotheses hold of this conversation. -/
example : GOutsAre gwOuts (gwWorld.run C protoSK protoSKD gwDraws (fun _ => gRand) 0 gwEvents).1 := by
  refine C78_group_conversation C protoSK (.inl rfl) protoSKD (.inl rfl) aesLaw sigLaw gwWorld ⟨fun _ _ => rfl, rfl, rfl⟩ gwDraws (fun _ => by simp [gwDraws, gDraws]) _ gwEvents ?_ ?_ gwOuts gw_spec
  · intro n text h
    simp [gwEvents] at h
    rcases h with ⟨-, rfl⟩ | ⟨-, rfl⟩ | ⟨-, rfl⟩ | ⟨-, rfl⟩ | ⟨-, rfl⟩ <;> simp
  · intro who n b h
    simp [gwEvents] at h
    obtain ⟨-, -, rfl⟩ := h
    intro x _ _ m _ m' content hm
    have : (newSenderKeyMessageFromBytes protoSK [1, 2, 3]).isOk = false := by decide +kernel
    rw [hm] at this
    simp [Res.isOk] at this

end

end Verif

import Verif.Proofs.Talk2
import Verif.Proofs.ToyFlow2
/-
C03: in a conversation between two users, every message delivered within the receive window decrypts to what was sent.
-/
set_option linter.unusedSimpArgs false
namespace Verif
open Talk (Side Party Conv Note)

/-- Everything fixed during a conversation. -/
structure Setup where
  C : Crypto
  env : Side → Env
  addr : Side → Addr
  S : Ser SMStruct
  P : Ser PKStruct
  k0 : SessionKeys
  spk : IdKeyPair
  ot : IdKeyPair
  spkId : UInt32
  otId : UInt32
  base : Key32
  start : Side → Nat
  lim : Side → Nat
  /-- Bob started without a key for Alice -/
  tofu : Prop
  /-- neither had an earlier session with the other -/
  clean : Prop

namespace Setup

def ident (X : Setup) (s : Side) : Key32 := (X.env s).identity.pub

structure Ok (X : Setup) : Prop where
  dh : X.C.DhLaw
  aes : X.C.AesLaw
  hC : ∀ s, (X.env s).C = X.C
  hS : ∀ s, (X.env s).S = X.S
  hP : ∀ s, (X.env s).P = X.P
  std : Std X.S X.P
  works : ∀ s i, X.start s ≤ i → i < X.lim s → (X.env s).rng i ≠ none
  fresh : ∀ s i j r r', X.start s ≤ i → i < j → j < X.lim s → (X.env s).rng i = some r → (X.env s).rng j = some r' →
    X.C.basePub (clamp r) ≠ X.C.basePub (clamp r')
  freshSpk : ∀ i r, X.start .bob ≤ i → i < X.lim .bob → (X.env .bob).rng i = some r → X.C.basePub (clamp r) ≠ X.spk.pub
  spkPub : X.spk.pub = X.C.basePub X.spk.priv
  otId : X.otId ≠ mediumMaxValue
  trust : ∀ ids, ids (X.addr .alice) = none ∨ ids (X.addr .alice) = some (X.ident .alice) →
    (X.env .bob).trusted ids (X.addr .alice) (X.ident .alice) = true
  recv : calculateReceiverSession X.C ⟨(X.env .bob).identity, X.spk.priv, some X.ot.priv, X.base, X.ident .alice⟩ = .ok X.k0

/-- Bob's state as created from any of Alice's prekey messages. -/
def bobInit (X : Setup) : SState :=
  { SState.new with
    version := currentVersion, remoteIdentity := some (X.ident .alice), localIdentity := some (X.ident .bob),
    senderChain := some ⟨⟨X.spk.pub, some X.spk.priv⟩, X.k0.chain, []⟩, rootKey := some X.k0.root,
    localRegistrationId := (X.env .bob).registrationId, remoteRegistrationId := (X.env .alice).registrationId,
    senderBaseKey := some X.base }

end Setup

/-- Parity of a side's turns. -/
def par : Side → Nat
  | .alice => 1
  | .bob => 0

/-- What a prekey message of Alice announces. -/
structure AnnouncedBy (X : Setup) (pm : PreKeyMsg) : Prop where
  base : pm.baseKey = X.base
  identity : pm.identityKey = X.ident .alice
  preKeyId : pm.struct.preKeyId = some (OptU32.new X.otId)
  signedPreKeyId : pm.struct.signedPreKeyId = X.spkId
  version : pm.struct.version = currentVersion
  registrationId : pm.struct.registrationId = (X.env .alice).registrationId

/-- A packet on the wire against the note of what was sent. -/
structure PacketFor (X : Setup) (es : Nat → Key32) (c : Conv) (x : Side × Packet) (n : Note) : Prop where
  side : x.1 = n.sender
  parity : n.turn % 2 = par n.sender
  sent : n.turn ≤ (c.party n.sender).turn
  pos : n.turn ≠ 0
  opens : (∃ b m, x.2 = .signal b ∧ n.turn ≠ 1 ∧ newSignalMessageFromBytes X.S b = .ok m ∧
      Honest X.C X.S X.k0 es (X.ident n.sender) (X.ident n.sender.peer) n.turn n.number n.text m) ∨
    (n.sender = .alice ∧ ∃ b pm, x.2 = .preKey b ∧ newPreKeyMessageFromBytes X.P X.S b = .ok pm ∧
      Honest X.C X.S X.k0 es (X.ident n.sender) (X.ident n.sender.peer) n.turn n.number n.text pm.message ∧ AnnouncedBy X pm)

/-- Bob's store before he hears of the session with base key `base`: he may have older sessions. -/
def Unmet (st : Store) (a : Addr) (base : Key32) : Prop :=
  ∃ r, st.load a = .ok r ∧ (r = Rec.new ∨ ∃ s ps, r = Rec.ofStates s ps ∧ ∀ y ∈ s :: ps, y.Initialised) ∧
    ∀ y ∈ r.state :: r.prevStates, y.senderBaseKey ≠ some base

/-- The stored data of a party whose session state is `st`. -/
def Backed (X : Setup) (s : Side) (n : Node) (p : Party) (st : SState) : Prop :=
  (∃ ps, Ready n.st (X.addr s.peer) st ps ∧ (X.clean → ps = []) ∧
    (match s with
     | .alice => st.pendingPreKey = (if p.turn = 1 then some ⟨some (OptU32.new X.otId), X.spkId, X.base⟩ else none) ∧
         st.localRegistrationId = (X.env .alice).registrationId
     | .bob => st.pendingPreKey = none ∧ st.senderBaseKey = some X.base ∧ p.turn ≠ 0)) ∨
  (s = .bob ∧ p.turn = 0 ∧ Unmet n.st (X.addr .alice) X.base ∧ (X.clean → n.st.sessions (X.addr .alice) = none) ∧
    n.st.preKeys X.otId = some X.ot ∧ st = X.bobInit)

structure Inv (X : Setup) (w : World) (c : Conv) (es : Nat → Key32) (left : Nat) : Prop where
  wire : All2 (PacketFor X es c) w.wire c.notes
  party : ∀ s, ∃ st, Holds X.C X.k0 es (X.ident s) (X.ident s.peer) st (c.party s) ∧ Backed X s (w.node s) (c.party s) st
  near : ∀ s, (c.party s).turn ≤ (c.party s.peer).turn + 1
  parity : ∀ s, (c.party s).turn % 2 = par s
  keys : ∀ s k, k % 2 = par s → k ≤ (c.party s).turn →
    (∃ i r, X.start s ≤ i ∧ i < (w.node s).pos ∧ (X.env s).rng i = some r ∧ es k = clamp r) ∨ (s = .bob ∧ k = 0 ∧ es 0 = X.spk.priv)
  dist : ∀ s j k, j % 2 = par s → k % 2 = par s → j ≤ (c.party s).turn → k ≤ (c.party s).turn →
    X.C.basePub (es j) = X.C.basePub (es k) → j = k
  room : ∀ s, X.start s ≤ (w.node s).pos ∧ (w.node s).pos + left ≤ X.lim s ∧ (c.party s).sent + left < 2 ^ 32
  spk : (w.node .bob).st.signedPreKeys X.spkId = some X.spk
  ident : (X.tofu ∧ (w.node .bob).st.identities (X.addr .alice) = none) ∨ (w.node .bob).st.identities (X.addr .alice) = some (X.ident .alice)

@[simp] theorem party_set_same (c : Conv) (s : Side) (p : Party) : (c.set s p).party s = p := by cases s <;> rfl
@[simp] theorem party_set_peer (c : Conv) (s : Side) (p : Party) : (c.set s p).party s.peer = c.party s.peer := by cases s <;> rfl
@[simp] theorem party_set_peer' (c : Conv) (s : Side) (p : Party) : (c.set s.peer p).party s = c.party s := by cases s <;> rfl
@[simp] theorem peer_peer (s : Side) : s.peer.peer = s := by cases s <;> rfl
theorem side_cases (s t : Side) : t = s ∨ t = s.peer := by cases s <;> cases t <;> simp [Side.peer]
theorem peer_ne (s : Side) : s.peer ≠ s := by cases s <;> simp [Side.peer]
theorem par_peer (s : Side) : par s.peer = 1 - par s := by cases s <;> rfl
theorem par_lt (s : Side) : par s < 2 := by cases s <;> simp [par]
@[simp] theorem notes_set (c : Conv) (s : Side) (p : Party) : (c.set s p).notes = c.notes := by cases s <;> rfl

theorem PacketFor.congr {X : Setup} {es es' : Nat → Key32} {c c' : Conv} {x : Side × Packet} {n : Note} (h : PacketFor X es c x n)
    (hc : (c.party n.sender).turn ≤ (c'.party n.sender).turn) (he : ∀ j ≤ n.turn, es' j = es j) : PacketFor X es' c' x n := by
  refine ⟨h.side, h.parity, Nat.le_trans h.sent hc, h.pos, ?_⟩
  rcases h.opens with ⟨b, m, h1, h2, h3, h4⟩ | ⟨h0, b, pm, h1, h2, h3, h4⟩
  · exact .inl ⟨b, m, h1, h2, h3, h4.congr he⟩
  · exact .inr ⟨h0, b, pm, h1, h2, h3.congr he, h4⟩

/-- A message reaches the session state of its recipient. -/
theorem Inv.receive {X : Setup} (hX : X.Ok) {w : World} {c : Conv} {es : Nat → Key32} {left : Nat} (h : Inv X w c es (left + 1))
    (s : Side) {st : SState} (hst : Holds X.C X.k0 es (X.ident s) (X.ident s.peer) st (c.party s)) {k i : Nat} {text : Bytes} {m : SignalMsg}
    (hm : Honest X.C X.S X.k0 es (X.ident s.peer) (X.ident s) k i text m) (hk : k % 2 = par s.peer) (hle : k ≤ (c.party s.peer).turn) :
    ∃ r, (X.env s).rng (w.node s).pos = some r ∧
    match (c.party s).receive k i with
    | .accepted p' => ∃ mk st' d es', decryptWithState (X.env s) ((X.env s).rng (w.node s).pos) st m = (.ok (text, mk), st', d) ∧
        Holds X.C X.k0 es' (X.ident s) (X.ident s.peer) st' p' ∧ st'.pendingPreKey = none ∧ st'.senderBaseKey = st.senderBaseKey ∧
        ((d = false ∧ es' = es ∧ p'.turn = (c.party s).turn ∧ p'.sent = (c.party s).sent ∧ k ≠ (c.party s).turn + 1) ∨
         (d = true ∧ k = (c.party s).turn + 1 ∧ es' = upd es ((c.party s).turn + 2) (clamp r) ∧ p'.turn = (c.party s).turn + 2 ∧ p'.sent = 0))
    | .refused => ∃ e st' d, decryptWithState (X.env s) ((X.env s).rng (w.node s).pos) st m = (.err e, st', d)
    | .forgotten => True := by
  obtain ⟨hr1, hr2, hr3⟩ := h.room s
  obtain ⟨r, hr⟩ := Option.ne_none_iff_exists'.1 (hX.works s (w.node s).pos hr1 (by omega))
  refine ⟨r, hr, ?_⟩
  rw [hr]
  have hnear := h.near s.peer
  rw [peer_peer] at hnear
  have hparS := h.parity s
  have hparP := h.parity s.peer
  rw [par_peer] at hk hparP
  have hpl := par_lt s
  have hd : ∀ x ∈ (c.party s).inbox, X.C.basePub (es x.1) = X.C.basePub (es k) → x.1 = k := by
    intro x hx he
    obtain ⟨h1, h2⟩ := hst.levels x hx
    have hns := h.near s
    exact h.dist s.peer x.1 k (by rw [par_peer]; omega) (by rw [par_peer]; exact hk) (by omega) hle he
  unfold Party.receive
  cases hf : (c.party s).inbox.find? (fun x => x.1 == k) with
  | some x =>
    have hold := hst.receive_old (hX.hC s) (hX.hS s) hm (some r) hd hf
    have hxk : x.1 = k := by have := List.find?_some hf; simpa using this
    have hmem := List.mem_of_find?_eq_some hf
    have hlev := (hst.levels x hmem).1
    obtain ⟨x1, x2⟩ := x
    simp only at hold hxk ⊢
    cases ha : Window.accept Talk.limits x2 i with
    | none =>
      rw [ha] at hold
      simp only at hold ⊢
      obtain ⟨e, he⟩ := hold
      exact ⟨e, _, _, he⟩
    | some qw =>
      obtain ⟨q, w'⟩ := qw
      rw [ha] at hold
      simp only at hold ⊢
      obtain ⟨mk, st', h1, h2, h3, h4⟩ := hold
      exact ⟨mk, st', false, es, h1, h2, h3, h4, .inl ⟨by simp, by simp, by simp, by simp, by simp only at hlev; omega⟩⟩
  | none =>
    simp only
    by_cases hkt : k = (c.party s).turn + 1
    · rw [if_pos hkt]
      subst hkt
      have hnew := hst.receive_new hX.dh (hX.hC s) (hX.hS s) hm r hd
      cases ha : Window.accept Talk.limits Window.empty i with
      | none =>
        rw [ha] at hnew
        simp only at hnew ⊢
        obtain ⟨e, st', he⟩ := hnew
        exact ⟨e, _, _, he⟩
      | some qw =>
        obtain ⟨q, w'⟩ := qw
        rw [ha] at hnew
        simp only at hnew ⊢
        obtain ⟨mk, st', h1, h2, h3, h4⟩ := hnew
        exact ⟨mk, st', true, _, h1, h2, h3, h4, .inr ⟨by simp, by simp, by simp, by simp, by simp⟩⟩
    · rw [if_neg hkt]
      trivial

/-- The invariant after an accepted message. -/
theorem Inv.accepted {X : Setup} (hX : X.Ok) {w : World} {c : Conv} {es : Nat → Key32} {left : Nat} (h : Inv X w c es (left + 1))
    (s : Side) {p' : Party} {st' : SState} {d : Bool} {es' : Nat → Key32} {r : Key32} {k : Nat} (hr : (X.env s).rng (w.node s).pos = some r)
    (hk : k ≤ (c.party s.peer).turn)
    (hh : Holds X.C X.k0 es' (X.ident s) (X.ident s.peer) st' p')
    (hcase : (d = false ∧ es' = es ∧ p'.turn = (c.party s).turn ∧ p'.sent = (c.party s).sent ∧ k ≠ (c.party s).turn + 1) ∨
      (d = true ∧ k = (c.party s).turn + 1 ∧ es' = upd es ((c.party s).turn + 2) (clamp r) ∧ p'.turn = (c.party s).turn + 2 ∧ p'.sent = 0))
    {n' : Node} (hpos : n'.pos = bump (w.node s).pos d) (hb : Backed X s n' p' st')
    (hbob : s = .bob → n'.st.signedPreKeys X.spkId = some X.spk ∧
      ((X.tofu ∧ n'.st.identities (X.addr .alice) = none) ∨ n'.st.identities (X.addr .alice) = some (X.ident .alice))) :
    Inv X ⟨upd w.node s n', w.wire⟩ (c.set s p') es' left := by
  have hnode : ∀ t, t ≠ s → upd w.node s n' t = w.node t := fun t ht => by simp [upd, ht]
  have hnode_s : upd w.node s n' s = n' := by simp [upd]
  have hp := peer_ne s
  have hlow : ∀ j, j ≤ (c.party s).turn + 1 → es' j = es j := by
    intro j hj
    rcases hcase with ⟨-, rfl, -⟩ | ⟨-, -, rfl, -⟩
    · rfl
    · unfold upd; rw [if_neg (by omega)]
  have hmono : (c.party s).turn ≤ p'.turn := by rcases hcase with ⟨-, -, e, -⟩ | ⟨-, -, -, e, -⟩ <;> omega
  have hpn := h.near s.peer
  rw [peer_peer] at hpn
  have hsn := h.near s
  have hparS := h.parity s
  have hparP := h.parity s.peer
  rw [par_peer] at hparP
  have hpl := par_lt s
  have hposle : (w.node s).pos ≤ n'.pos ∧ n'.pos ≤ (w.node s).pos + 1 := by rw [hpos]; unfold bump; split <;> omega
  have hroom := h.room s
  -- a key of `s` above its old turn is the fresh one
  have hnewkey : ∀ j, j % 2 = par s → j ≤ p'.turn → ¬ j ≤ (c.party s).turn →
      j = (c.party s).turn + 2 ∧ d = true ∧ es' j = clamp r := by
    intro j hj hjl hjn
    rcases hcase with ⟨-, -, e, -⟩ | ⟨hd, -, rfl, e, -⟩
    · omega
    · have : j = (c.party s).turn + 2 := by omega
      subst this
      exact ⟨rfl, hd, by simp [upd]⟩
  have hfreshold : ∀ j, j % 2 = par s → j ≤ (c.party s).turn → d = true → X.C.basePub (clamp r) ≠ X.C.basePub (es j) := by
    intro j hj hjl hd he
    rcases h.keys s j hj hjl with ⟨i, r', h1, h2, h3, h4⟩ | ⟨rfl, rfl, h4⟩
    · rw [h4] at he
      exact hX.fresh s i _ r' r h1 h2 (by omega) h3 hr he.symm
    · rw [h4, ← hX.spkPub] at he
      exact hX.freshSpk _ r hroom.1 (by omega) hr he
  refine ⟨?_, ?_, ?_, ?_, ?_, ?_, ?_, ?_, ?_⟩
  · simp only [notes_set]
    refine all2_imp_mem h.wire fun x n _ hx => hx.congr ?_ ?_
    · rcases side_cases s n.sender with e | e <;> rw [e] <;> simp [hmono]
    · intro j hj
      have := hx.sent
      rcases side_cases s n.sender with e | e
      · rw [e] at this; exact hlow j (by omega)
      · rw [e] at this; exact hlow j (by omega)
  · intro t
    rcases side_cases s t with rfl | rfl
    · exact ⟨st', by simpa using hh, by simpa [hnode_s] using hb⟩
    · obtain ⟨st, h1, h2⟩ := h.party s.peer
      refine ⟨st, ?_, ?_⟩
      · simp only [party_set_peer]
        exact h1.congr fun j hj => hlow j (by omega)
      · simpa [hnode _ hp] using h2
  · intro t
    rcases side_cases s t with rfl | rfl
    · simp only [party_set_same, party_set_peer]
      rcases hcase with ⟨-, -, e, -⟩ | ⟨-, e1, -, e, -⟩ <;> omega
    · simp only [party_set_peer, peer_peer, party_set_same]; omega
  · intro t
    rcases side_cases s t with rfl | rfl
    · simp only [party_set_same]
      rcases hcase with ⟨-, -, e, -⟩ | ⟨-, -, -, e, -⟩ <;> omega
    · simp only [party_set_peer]; exact h.parity s.peer
  · intro t j hj hjl
    rcases side_cases s t with rfl | rfl
    · simp only [party_set_same, hnode_s] at hjl ⊢
      by_cases hjo : j ≤ (c.party t).turn
      · rcases h.keys t j hj hjo with ⟨i, r', h1, h2, h3, h4⟩ | ⟨h1, h2, h3⟩
        · exact .inl ⟨i, r', h1, by omega, h3, by rw [hlow j (by omega)]; exact h4⟩
        · exact .inr ⟨h1, h2, by rw [hlow 0 (by omega)]; exact h3⟩
      · obtain ⟨rfl, hd, hkey⟩ := hnewkey j hj hjl hjo
        refine .inl ⟨(w.node t).pos, r, hroom.1, ?_, hr, hkey⟩
        rw [hpos, hd]; simp [bump]
    · simp only [party_set_peer, hnode _ hp] at hjl ⊢
      rcases h.keys s.peer j hj hjl with ⟨i, r', h1, h2, h3, h4⟩ | ⟨h1, h2, h3⟩
      · exact .inl ⟨i, r', h1, h2, h3, by rw [hlow j (by omega)]; exact h4⟩
      · exact .inr ⟨h1, h2, by rw [hlow 0 (by omega)]; exact h3⟩
  · intro t j j' hj hj' hjl hjl' he
    rcases side_cases s t with rfl | rfl
    · simp only [party_set_same] at hjl hjl'
      by_cases h1 : j ≤ (c.party t).turn <;> by_cases h2 : j' ≤ (c.party t).turn
      · rw [hlow j (by omega), hlow j' (by omega)] at he
        exact h.dist t j j' hj hj' h1 h2 he
      · obtain ⟨-, hd, hkey⟩ := hnewkey j' hj' hjl' h2
        rw [hlow j (by omega), hkey] at he
        exact absurd he.symm (hfreshold j hj h1 hd)
      · obtain ⟨-, hd, hkey⟩ := hnewkey j hj hjl h1
        rw [hlow j' (by omega), hkey] at he
        exact absurd he (hfreshold j' hj' h2 hd)
      · obtain ⟨e1, -⟩ := hnewkey j hj hjl h1
        obtain ⟨e2, -⟩ := hnewkey j' hj' hjl' h2
        omega
    · simp only [party_set_peer] at hjl hjl'
      rw [hlow j (by omega), hlow j' (by omega)] at he
      exact h.dist s.peer j j' hj hj' hjl hjl' he
  · intro t
    rcases side_cases s t with rfl | rfl
    · simp only [party_set_same, hnode_s]
      refine ⟨by omega, by omega, ?_⟩
      rcases hcase with ⟨-, -, -, e, -⟩ | ⟨-, -, -, -, e⟩ <;> omega
    · simp only [party_set_peer, hnode _ hp]
      have := h.room s.peer
      omega
  · by_cases hs : s = .bob
    · subst hs; simp only [hnode_s]; exact (hbob rfl).1
    · simp only [hnode _ (Ne.symm hs)]; exact h.spk
  · by_cases hs : s = .bob
    · subst hs; simp only [hnode_s]; exact (hbob rfl).2
    · simp only [hnode _ (Ne.symm hs)]; exact h.ident

/-- The invariant after a call that left the stored data of `s` intact. -/
theorem Inv.untouched {X : Setup} {w : World} {c : Conv} {es : Nat → Key32} {left m : Nat} (h : Inv X w c es (left + m))
    (s : Side) {n' : Node} (hposle : (w.node s).pos ≤ n'.pos ∧ n'.pos ≤ (w.node s).pos + m)
    (hb : ∀ st, Backed X s (w.node s) (c.party s) st → Backed X s n' (c.party s) st)
    (hbob : s = .bob → n'.st.signedPreKeys X.spkId = some X.spk ∧
      ((X.tofu ∧ n'.st.identities (X.addr .alice) = none) ∨ n'.st.identities (X.addr .alice) = some (X.ident .alice))) :
    Inv X ⟨upd w.node s n', w.wire⟩ c es left := by
  have hnode : ∀ t, t ≠ s → upd w.node s n' t = w.node t := fun t ht => by simp [upd, ht]
  have hnode_s : upd w.node s n' s = n' := by simp [upd]
  have hp := peer_ne s
  refine ⟨h.wire, ?_, h.near, h.parity, ?_, h.dist, ?_, ?_, ?_⟩
  · intro t
    obtain ⟨st, h1, h2⟩ := h.party t
    refine ⟨st, h1, ?_⟩
    rcases side_cases s t with rfl | rfl
    · simp only [hnode_s]; exact hb st h2
    · simp only [hnode _ hp]; exact h2
  · intro t j hj hjl
    rcases side_cases s t with rfl | rfl
    · simp only [hnode_s]
      rcases h.keys t j hj hjl with ⟨i, r', h1, h2, h3, h4⟩ | h1
      · exact .inl ⟨i, r', h1, by omega, h3, h4⟩
      · exact .inr h1
    · simp only [hnode _ hp]; exact h.keys _ j hj hjl
  · intro t
    rcases side_cases s t with rfl | rfl
    · simp only [hnode_s]; have := h.room t; omega
    · simp only [hnode _ hp]; have := h.room s.peer; omega
  · by_cases hs : s = .bob
    · subst hs; simp only [hnode_s]; exact (hbob rfl).1
    · simp only [hnode _ (Ne.symm hs)]; exact h.spk
  · by_cases hs : s = .bob
    · subst hs; simp only [hnode_s]; exact (hbob rfl).2
    · simp only [hnode _ (Ne.symm hs)]; exact h.ident

/-- The invariant after a refused message. -/
theorem Inv.refused {X : Setup} {w : World} {c : Conv} {es : Nat → Key32} {left : Nat} (h : Inv X w c es (left + 1))
    (s : Side) {d : Bool} {n' : Node} (hpos : n'.pos = bump (w.node s).pos d)
    (hb : ∀ st, Backed X s (w.node s) (c.party s) st → Backed X s n' (c.party s) st)
    (hbob : s = .bob → n'.st.signedPreKeys X.spkId = some X.spk ∧
      ((X.tofu ∧ n'.st.identities (X.addr .alice) = none) ∨ n'.st.identities (X.addr .alice) = some (X.ident .alice))) :
    Inv X ⟨upd w.node s n', w.wire⟩ c es left :=
  h.untouched s (by rw [hpos]; unfold bump; split <;> omega) hb hbob

end Verif

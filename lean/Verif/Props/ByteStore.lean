import Verif.Proofs.ByteStore
import Verif.Model.ByteWorld
import Verif.Props.Conversation
/-
C63: an application that stores nothing but the bytes `Serialize` returns observes exactly what one observes whose stores keep the records.
-/
namespace Verif

/-- The byte store `bs` holds the serialised form of what `st` holds: sessions, prekeys and signed prekeys (with any timestamp and signature). -/
structure HoldsBytes (st : Store) (bs : ByteStore) : Prop where
  sessions : ∀ a, (st.sessions a = none ∧ bs.sessions a = none) ∨
    ∃ (r : Rec) (s : SessionStruct) (b : Bytes), (∀ x ∈ r.state :: r.prevStates, InInt64 x.version) ∧ r.toStruct = .ok s ∧ st.sessions a = some s ∧ r.serialize = .ok b ∧ bs.sessions a = some b
  identities : bs.identities = st.identities
  preKeys : ∀ id, (st.preKeys id = none ∧ bs.preKeys id = none) ∨
    ∃ kp b, st.preKeys id = some kp ∧ (newPreKey id kp).serialize = .ok b ∧ bs.preKeys id = some b
  signedPreKeys : ∀ id, (st.signedPreKeys id = none ∧ bs.signedPreKeys id = none) ∨
    ∃ kp t sig b, st.signedPreKeys id = some kp ∧ (newSignedPreKey id t kp sig).serialize = .ok b ∧ bs.signedPreKeys id = some b

/-- The relation kept by every call. -/
structure ByteRel (st : Store) (bs : ByteStore) : Prop where
  sessions : ∀ a, (st.sessions a = none ∧ bs.sessions a = none) ∨
    ∃ r r' s b, RecRel r r' ∧ r'.state = r.state ∧ r.toStruct = .ok s ∧ st.sessions a = some s ∧ r'.serialize = .ok b ∧ bs.sessions a = some b
  identities : bs.identities = st.identities
  preKeys : ∀ id, (bs.preKeyPair id).map (·.priv) = (st.preKeys id).map (·.priv)
  signedPreKeys : ∀ id, (bs.signedPreKeyPair id).map (·.priv) = (st.signedPreKeys id).map (·.priv)

theorem HoldsBytes.rel {st : Store} {bs : ByteStore} (h : HoldsBytes st bs) : ByteRel st bs := by
  refine ⟨fun a => ?_, h.identities, fun id => ?_, fun id => ?_⟩
  · rcases h.sessions a with h | ⟨r, s, b, hv, h1, h2, h3, h4⟩
    · exact .inl h
    · have e : (Rec.ofStates r.state r.prevStates).toStruct = r.toStruct := by simp only [Rec.toStruct, ofStates_state, ofStates_prev]
      refine .inr ⟨Rec.ofStates r.state r.prevStates, _, s, b, RecRel.refl fun x => ?_, rfl, e.trans h1, h2, by rw [Rec.serialize, e]; exact h3, h4⟩
      simp only [Rec.ofStates]
      cases hx : (r.state :: r.prevStates)[x]? with
      | none => exact inInt64_zero
      | some y => exact hv y (List.mem_of_getElem? hx)
  · rcases h.preKeys id with ⟨h1, h2⟩ | ⟨kp, b, h1, h2, h3⟩
    · rw [ByteStore.preKeyPair, h1, h2]; rfl
    · obtain ⟨b', q, e1, e2, -, e3⟩ := C60_preKey_bytes id kp
      rw [e1] at h2; cases h2
      simp only [ByteStore.preKeyPair, h1, h3, Option.bind_some, e2, Option.map_some, e3]
  · rcases h.signedPreKeys id with ⟨h1, h2⟩ | ⟨kp, t, sig, b, h1, h2, h3⟩
    · rw [ByteStore.signedPreKeyPair, h1, h2]; rfl
    · obtain ⟨b', q, e1, e2, -, e3, -⟩ := C60_signedPreKey_bytes id t kp sig
      rw [e1] at h2; cases h2
      simp only [ByteStore.signedPreKeyPair, h1, h3, Option.bind_some, e2, Option.map_some, e3]

theorem RecRel.ofStates {r r' : Rec} (h : RecRel r r') : RecRel (Rec.ofStates r.state r.prevStates) (Rec.ofStates r'.state r'.prevStates) := by
  have hl : r'.prevStates.length = r.prevStates.length := by simp [Rec.prevStates, h.prev]
  refine ⟨by simp [Rec.ofStates, hl], rfl, by simp [Rec.ofStates, hl], rfl, fun x => ?_, fun x => ?_⟩
  · simp only [Rec.ofStates]
    cases x with
    | zero => exact h.state
    | succ i =>
      simp only [List.getElem?_cons_succ, Rec.prevStates, List.getElem?_map, h.prev]
      cases r.prev[i]? with
      | none => exact .inl rfl
      | some a => exact h.heap a
  · simp only [Rec.ofStates]
    cases x with
    | zero => exact h.versions _
    | succ i =>
      simp only [List.getElem?_cons_succ, Rec.prevStates, List.getElem?_map]
      cases r.prev[i]? with
      | none => exact inInt64_zero
      | some a => exact h.versions a

theorem RecRel.versions' {r r' : Rec} (h : RecRel r r') (a : Nat) : InInt64 (r'.heap a).version := by
  rw [(h.heap a).version]; exact h.versions a

/-- Both stores rebuild related records. -/
theorem ByteRel.load {st : Store} {bs : ByteStore} (h : ByteRel st bs) (a : Addr) :
    ∃ r r', st.load a = .ok r ∧ bs.load a = .ok r' ∧ RecRel r r' ∧ r'.state = r.state ∧ (r.fresh = true → r.state.receiverChains = []) ∧
      ((st.sessions a = none) ↔ (bs.sessions a = none)) := by
  rcases h.sessions a with ⟨h1, h2⟩ | ⟨r, r', s, b, hr, hs, h1, h2, h3, h4⟩
  · refine ⟨Rec.new, Rec.new, by rw [Store.load, h1], by rw [ByteStore.load, h2], RecRel.refl fun _ => inInt64_zero, rfl, fun _ => rfl, by simp [h1, h2]⟩
  · obtain ⟨s', hs', hb⟩ : ∃ s', r'.toStruct = .ok s' ∧ b = s'.toJson.enc := by
      rw [Rec.serialize] at h3
      cases ht : r'.toStruct with
      | err e => rw [ht] at h3; cases h3
      | panic => rw [ht] at h3; cases h3
      | ok s' => rw [ht] at h3; cases h3; exact ⟨s', rfl, rfl⟩
    have hv : ∀ x ∈ r'.state :: r'.prevStates, InInt64 x.version := by
      intro x hx
      rcases List.mem_cons.1 hx with rfl | hx
      · exact hr.versions' _
      · obtain ⟨i, -, rfl⟩ := List.mem_map.1 hx
        exact hr.versions' _
    obtain ⟨v1, v2⟩ := Rec.toStruct_versions hs' hv
    refine ⟨_, _, ?_, ?_, hr.ofStates, ?_, ?_, by simp [h2, h4]⟩
    · rw [Store.load, h2]; dsimp only; rw [Rec.ofStruct_toStruct h1]
    · rw [ByteStore.load, h4]; dsimp only; rw [hb, Rec.ofBytes_enc s' v1 v2, Rec.ofStruct_toStruct hs']
    · rw [ofStates_state, ofStates_state, hs]
    · intro hf; cases hf

/-- Serialising related records succeeds or panics alike. -/
theorem RecRel.serialize {r r' : Rec} (h : RecRel r r') :
    (∃ s b, r.toStruct = .ok s ∧ r'.serialize = .ok b) ∨ (r.toStruct = .panic ∧ r'.serialize = .panic) := by
  obtain ⟨h1, h2⟩ := C21_record_roundtrip r
  obtain ⟨h1', h2'⟩ := C21_record_roundtrip r'
  have hiff : (∀ s ∈ r.state :: r.prevStates, s.Initialised) ↔ (∀ s ∈ r'.state :: r'.prevStates, s.Initialised) := by
    simp only [List.mem_cons, forall_eq_or_imp, Rec.prevStates, h.prev, List.mem_map, forall_exists_index, and_imp, forall_apply_eq_imp_iff₂]
    rw [← h.state.init]
    exact and_congr Iff.rfl ⟨fun g a ha => (h.heap a).init.2 (g a ha), fun g a ha => (h.heap a).init.1 (g a ha)⟩
  by_cases hi : ∀ s ∈ r.state :: r.prevStates, s.Initialised
  · obtain ⟨s, -, e, -⟩ := h1 hi
    obtain ⟨s', -, e', -⟩ := h1' (hiff.1 hi)
    exact .inl ⟨s, _, e, by rw [Rec.serialize, e']; rfl⟩
  · have hn := hi
    rw [hiff] at hn
    push Not at hi hn
    exact .inr ⟨h2 hi, by rw [Rec.serialize, h2' hn]; rfl⟩

theorem ByteRel.apply {st : Store} {bs : ByteStore} (h : ByteRel st bs) {e e' : Effect} (he : EffRel e e') :
    (st.apply e = none ∧ bs.apply e' = none) ∨ ∃ st' bs', st.apply e = some st' ∧ bs.apply e' = some bs' ∧ ByteRel st' bs' := by
  cases he with
  | identity a k =>
    refine .inr ⟨_, _, rfl, rfl, h.sessions, ?_, h.preKeys, h.signedPreKeys⟩
    simp only [h.identities]
  | remove id =>
    refine .inr ⟨_, _, rfl, rfl, h.sessions, h.identities, fun i => ?_, h.signedPreKeys⟩
    have := h.preKeys i
    simp only [ByteStore.preKeyPair, upd] at this ⊢
    split
    · rfl
    · exact this
  | session a hr hs =>
    rename_i r r'
    rcases hr.serialize with ⟨s, b, e1, e2⟩ | ⟨e1, e2⟩
    · refine .inr ⟨{ st with sessions := upd st.sessions a (some s) }, { bs with sessions := upd bs.sessions a (some b) },
        by simp only [Store.apply, e1], by simp only [ByteStore.apply, e2], fun x => ?_, h.identities, h.preKeys, h.signedPreKeys⟩
      simp only [upd]
      by_cases hx : x = a
      · rw [if_pos hx, if_pos hx]
        exact .inr ⟨r, r', s, b, hr, hs, e1, rfl, e2, rfl⟩
      · rw [if_neg hx, if_neg hx]
        exact h.sessions x
    · exact .inl ⟨by simp only [Store.apply, e1], by simp only [ByteStore.apply, e2]⟩

theorem ByteRel.applyAll {es es' : List Effect} (he : List.Forall₂ EffRel es es') : ∀ {st : Store} {bs : ByteStore}, ByteRel st bs →
    (bs.applyAll es').2 = (st.applyAll es).2 ∧ ByteRel (st.applyAll es).1 (bs.applyAll es').1 := by
  induction he with
  | nil => intro st bs h; exact ⟨rfl, h⟩
  | cons hd _ ih =>
    intro st bs h
    rcases h.apply hd with ⟨e1, e2⟩ | ⟨st', bs', e1, e2, h'⟩
    · simp only [Store.applyAll, ByteStore.applyAll, e1, e2]; exact ⟨trivial, h⟩
    · simp only [Store.applyAll, ByteStore.applyAll, e1, e2]; exact ih h'

theorem ByteRel.finish {α : Type} {es es' : List Effect} (he : List.Forall₂ EffRel es es') {st : Store} {bs : ByteStore} (h : ByteRel st bs) (res : Res α) :
    (bs.finish res es').1 = (Verif.finish st res es).1 ∧ ByteRel (Verif.finish st res es).2 (bs.finish res es').2 := by
  obtain ⟨h1, h2⟩ := ByteRel.applyAll he h
  simp only [ByteStore.finish, Verif.finish]
  generalize st.applyAll es = o at *
  generalize bs.applyAll es' = o' at *
  obtain ⟨x, b⟩ := o
  obtain ⟨x', b'⟩ := o'
  dsimp only at h1 h2
  subst h1
  cases b' <;> exact ⟨rfl, h2⟩

theorem ByteRel.encrypt {st : Store} {bs : ByteStore} (h : ByteRel st bs) (E : Env) (a : Addr) (pt : Bytes) :
    (bs.encrypt E a pt).1 = (st.encrypt E a pt).1 ∧ ByteRel (st.encrypt E a pt).2 (bs.encrypt E a pt).2 := by
  obtain ⟨r, r', h1, h2, hr, hs, -, -⟩ := h.load a
  obtain ⟨e1, e2⟩ := encryptRec_rel E a pt hr hs
  simp only [ByteStore.encrypt, Store.encrypt, Store.encryptTrace, h1, h2]
  rw [e1]
  exact h.finish e2 _

theorem ByteRel.decrypt {st : Store} {bs : ByteStore} (h : ByteRel st bs) (E : Env) (pos : Nat) (a : Addr) (m : SignalMsg) :
    (bs.decrypt E pos a m).1 = (st.decrypt E pos a m).1 ∧ ByteRel (st.decrypt E pos a m).2.1 (bs.decrypt E pos a m).2.1 ∧
    (bs.decrypt E pos a m).2.2 = (st.decrypt E pos a m).2.2 := by
  obtain ⟨r, r', h1, h2, hr, hs, -, hn⟩ := h.load a
  obtain ⟨e1, e2, e3⟩ := decryptRec_rel E a m pos hr
  cases hses : st.sessions a with
  | none =>
    simp only [ByteStore.decrypt, Store.decrypt, Store.decryptTrace, hses, hn.1 hses]
    exact ⟨rfl, h, trivial⟩
  | some s =>
    cases hses' : bs.sessions a with
    | none => rw [hn.2 hses'] at hses; cases hses
    | some b =>
      simp only [ByteStore.decrypt, Store.decrypt, Store.decryptTrace, hses, hses', h1, h2]
      rw [e1, e2]
      exact ⟨(h.finish e3 _).1, (h.finish e3 _).2, rfl⟩

theorem ByteRel.decryptPreKey {st : Store} {bs : ByteStore} (h : ByteRel st bs) (E : Env) (pos : Nat) (a : Addr) (m : PreKeyMsg) :
    (bs.decryptPreKey E pos a m).1 = (st.decryptPreKey E pos a m).1 ∧ ByteRel (st.decryptPreKey E pos a m).2.1 (bs.decryptPreKey E pos a m).2.1 ∧
    (bs.decryptPreKey E pos a m).2.2 = (st.decryptPreKey E pos a m).2.2 := by
  obtain ⟨r, r', h1, h2, hr, hs, hf, -⟩ := h.load a
  obtain ⟨e1, e2, e3⟩ := decryptPreKeyRec_rel E st.identities st.preKeys st.signedPreKeys bs.preKeyPair bs.signedPreKeyPair h.preKeys h.signedPreKeys
    pos a m hr hs hf
  simp only [ByteStore.decryptPreKey, Store.decryptPreKey, Store.decryptPreKeyTrace, h1, h2, h.identities]
  rw [e1, e2]
  exact ⟨(h.finish e3 _).1, (h.finish e3 _).2, rfl⟩

theorem ByteRel.processBundle {st : Store} {bs : ByteStore} (h : ByteRel st bs) (E : Env) (pos : Nat) (a : Addr) (b : Bundle) :
    (bs.processBundle E pos a b).1 = (st.processBundle E pos a b).1 ∧ ByteRel (st.processBundle E pos a b).2.1 (bs.processBundle E pos a b).2.1 ∧
    (bs.processBundle E pos a b).2.2 = (st.processBundle E pos a b).2.2 := by
  obtain ⟨r, r', h1, h2, hr, hs, hf, -⟩ := h.load a
  simp only [ByteStore.processBundle, Store.processBundle, Store.processBundleTrace, h.identities]
  cases checkBundle E st.identities a b with
  | err e => exact ⟨rfl, h, rfl⟩
  | panic => exact ⟨rfl, h, rfl⟩
  | ok k =>
    obtain ⟨e1, e2, e3⟩ := buildFromBundle_rel E pos a b k hr hs
    simp only [h1, h2]
    rw [e1, e2]
    exact ⟨(h.finish e3 _).1, (h.finish e3 _).2, rfl⟩

theorem ByteRel.call {st : Store} {bs : ByteStore} (h : ByteRel st bs) (E : Env) (pos : Nat) (c : Call) :
    (bs.call E pos c).1 = (st.call E pos c).1 ∧ ByteRel (st.call E pos c).2.1 (bs.call E pos c).2.1 ∧ (bs.call E pos c).2.2 = (st.call E pos c).2.2 := by
  cases c with
  | encrypt a pt =>
    obtain ⟨e1, e2⟩ := h.encrypt E a pt
    exact ⟨congrArg Answer.encrypted e1, e2, rfl⟩
  | decrypt a m =>
    obtain ⟨e1, e2, e3⟩ := h.decrypt E pos a m
    exact ⟨congrArg Answer.decrypted e1, e2, e3⟩
  | decryptPreKey a m =>
    obtain ⟨e1, e2, e3⟩ := h.decryptPreKey E pos a m
    exact ⟨congrArg Answer.decrypted e1, e2, e3⟩
  | processBundle a b =>
    obtain ⟨e1, e2, e3⟩ := h.processBundle E pos a b
    exact ⟨congrArg Answer.processed e1, e2, e3⟩

/-- **C63.** Take an application that keeps sessions, prekeys and signed prekeys only as the bytes `Serialize` returns, and one whose stores keep
the records themselves.  Whatever calls they make, in whatever order, each depending on all earlier answers, they get the same answers (including
errors and panics). -/
theorem C63_bytes_only_store (E : Env) (app : App) (n : Nat) (st : Store) (bs : ByteStore) (pos : Nat) (h : HoldsBytes st bs) :
    bs.run E app n pos [] = st.run E app n pos [] := by
  have key : ∀ (n : Nat) (st : Store) (bs : ByteStore) (pos : Nat) (hist : List Answer), ByteRel st bs →
      bs.run E app n pos hist = st.run E app n pos hist := by
    intro n
    induction n with
    | zero => intros; rfl
    | succ n ih =>
      intro st bs pos hist h
      simp only [ByteStore.run, Store.run]
      cases app hist with
      | none => rfl
      | some c =>
        obtain ⟨e1, e2, e3⟩ := h.call E pos c
        dsimp only
        rw [e1, e3]
        exact ih _ _ _ _ e2
  exact key n st bs pos [] h.rel

/-- **C63 (what is stored).** After any such calls the two stores still hold the same saved identities, sessions for the same addresses, and the
same current session states; archived states agree except possibly for the public half of a signed prekey that was never used to send. -/
theorem C63_same_sessions (E : Env) (st : Store) (bs : ByteStore) (pos : Nat) (h : HoldsBytes st bs) (calls : List Call) :
    let out := calls.foldl (fun (x : Store × ByteStore × Nat) c => ((x.1.call E x.2.2 c).2.1, (x.2.1.call E x.2.2 c).2.1, (x.1.call E x.2.2 c).2.2)) (st, bs, pos)
    out.2.1.identities = out.1.identities ∧ ∀ a, (out.1.sessions a = none ↔ out.2.1.sessions a = none) ∧
      ∃ r r', out.1.load a = .ok r ∧ out.2.1.load a = .ok r' ∧ r'.state = r.state ∧ r'.prevStates.length = r.prevStates.length := by
  have key : ∀ (calls : List Call) (x : Store × ByteStore × Nat), ByteRel x.1 x.2.1 →
      ByteRel (calls.foldl (fun (x : Store × ByteStore × Nat) c => ((x.1.call E x.2.2 c).2.1, (x.2.1.call E x.2.2 c).2.1, (x.1.call E x.2.2 c).2.2)) x).1
        (calls.foldl (fun (x : Store × ByteStore × Nat) c => ((x.1.call E x.2.2 c).2.1, (x.2.1.call E x.2.2 c).2.1, (x.1.call E x.2.2 c).2.2)) x).2.1 := by
    intro calls
    induction calls with
    | nil => intro x h; exact h
    | cons c cs ih => intro x h; exact ih _ (h.call E x.2.2 c).2.1
  intro out
  have hr : ByteRel out.1 out.2.1 := key calls (st, bs, pos) h.rel
  refine ⟨hr.identities, fun a => ?_⟩
  obtain ⟨r, r', h1, h2, h3, h4, -, h6⟩ := hr.load a
  exact ⟨h6, r, r', h1, h2, h4, by simp [Rec.prevStates, h3.prev]⟩

/-! ### Conversations -/

open Talk

structure NodeRel (n : Node) (n' : ByteNode) : Prop where
  st : ByteRel n.st n'.st
  pos : n'.pos = n.pos

structure WorldRel (w : World) (w' : ByteWorld) : Prop where
  node : ∀ s, NodeRel (w.node s) (w'.node s)
  wire : w'.wire = w.wire

theorem NodeRel.say {n : Node} {n' : ByteNode} (h : NodeRel n n') (E : Env) (peer : Addr) (text : Bytes) :
    (n'.say E peer text).1 = (n.say E peer text).1 ∧ NodeRel (n.say E peer text).2 (n'.say E peer text).2 := by
  obtain ⟨e1, e2⟩ := h.st.encrypt E peer text
  simp only [Node.say, ByteNode.say]
  generalize n.st.encrypt E peer text = o at *
  generalize n'.st.encrypt E peer text = o' at *
  obtain ⟨res, st⟩ := o
  obtain ⟨res', st'⟩ := o'
  dsimp only at e1 e2
  subst e1
  cases res' <;> exact ⟨rfl, e2, h.pos⟩

theorem NodeRel.hear {n : Node} {n' : ByteNode} (h : NodeRel n n') (E : Env) (peer : Addr) (p : Packet) :
    (n'.hear E peer p).1 = (n.hear E peer p).1 ∧ NodeRel (n.hear E peer p).2 (n'.hear E peer p).2 := by
  cases p with
  | signal b =>
    simp only [Node.hear, ByteNode.hear]
    cases newSignalMessageFromBytes E.S b with
    | err e => exact ⟨rfl, h⟩
    | panic => exact ⟨rfl, h⟩
    | ok m =>
      obtain ⟨e1, e2, e3⟩ := h.st.decrypt E n.pos peer m
      dsimp only
      rw [h.pos, e1, e3]
      exact ⟨rfl, e2, rfl⟩
  | preKey b =>
    simp only [Node.hear, ByteNode.hear]
    cases newPreKeyMessageFromBytes E.P E.S b with
    | err e => exact ⟨rfl, h⟩
    | panic => exact ⟨rfl, h⟩
    | ok m =>
      obtain ⟨e1, e2, e3⟩ := h.st.decryptPreKey E n.pos peer m
      dsimp only
      rw [h.pos, e1, e3]
      exact ⟨rfl, e2, rfl⟩

theorem WorldRel.upd {w : World} {w' : ByteWorld} (h : WorldRel w w') (s : Side) {n : Node} {n' : ByteNode} (hn : NodeRel n n') (l : List (Side × Packet)) :
    WorldRel ⟨Verif.upd w.node s n, l⟩ ⟨Verif.upd w'.node s n', l⟩ := by
  refine ⟨fun t => ?_, rfl⟩
  simp only [Verif.upd]
  split
  · exact hn
  · exact h.node t

theorem WorldRel.step {w : World} {w' : ByteWorld} (h : WorldRel w w') (env : Side → Env) (addr : Side → Addr) (e : Event) :
    (w'.step env addr e).1 = (w.step env addr e).1 ∧ WorldRel (w.step env addr e).2 (w'.step env addr e).2 := by
  cases e with
  | say s text =>
    obtain ⟨e1, e2⟩ := (h.node s).say (env s) (addr s.peer) text
    simp only [World.step, ByteWorld.step, h.wire]
    generalize (w.node s).say (env s) (addr s.peer) text = o at *
    generalize (w'.node s).say (env s) (addr s.peer) text = o' at *
    obtain ⟨res, n⟩ := o
    obtain ⟨res', n'⟩ := o'
    dsimp only at e1 e2
    subst e1
    cases res' <;> exact ⟨rfl, h.upd s e2 _⟩
  | deliver i =>
    simp only [World.step, ByteWorld.step, h.wire]
    cases w.wire[i]? with
    | none => exact ⟨rfl, h⟩
    | some x =>
      obtain ⟨s, p⟩ := x
      obtain ⟨e1, e2⟩ := (h.node s.peer).hear (env s.peer) (addr s) p
      dsimp only
      rw [e1]
      exact ⟨rfl, h.upd s.peer e2 _⟩

theorem WorldRel.run {w : World} {w' : ByteWorld} (h : WorldRel w w') (env : Side → Env) (addr : Side → Addr) (evs : List Event) :
    w'.run env addr evs = w.run env addr evs := by
  induction evs generalizing w w' with
  | nil => rfl
  | cons e es ih =>
    obtain ⟨e1, e2⟩ := h.step env addr e
    simp only [World.run, ByteWorld.run, e1, ih e2]

/-- **C63 (conversations).** C03 holds for users whose stores hold nothing but bytes: `bsA`, `bsB` hold the serialised form of what the stores
of `Meeting` hold, Alice processes Bob's bundle, and from then on every acceptable message is decrypted to the text that was sent, whatever the
network does, although every call rebuilds its records from JSON and Bob's prekeys come back with wrong public halves (C22). -/
theorem C63_conversation {C : Crypto} (hdh : C.DhLaw) (haes : C.AesLaw) {A B : Env} {addrA addrB : Addr} {stA stB stA' : Store} {posA posB posA' : Nat}
    {b : Bundle} {spk ot : IdKeyPair} (evs : List Event) (h : Meeting C A B addrA addrB stA stB stA' posA posB posA' b spk ot evs.length)
    (hn : evs.length < 2 ^ 32) (ht : ∀ s t, Event.say s t ∈ evs → t.length < 2 ^ 63) (outs : List Outcome) (ho : Conv.start.run evs = some outs)
    (bsA bsB : ByteStore) (hA : HoldsBytes stA bsA) (hB : HoldsBytes stB bsB) :
    (bsA.processBundle A posA addrB b).1 = .ok () ∧
    All2 Matches outs (ByteWorld.run (sides A B) (sides addrA addrB)
      ⟨sides ⟨(bsA.processBundle A posA addrB b).2.1, (bsA.processBundle A posA addrB b).2.2⟩ ⟨bsB, posB⟩, []⟩ evs) := by
  obtain ⟨e1, e2, e3⟩ := hA.rel.processBundle A posA addrB b
  rw [h.processed] at e1 e2 e3
  refine ⟨e1, ?_⟩
  have hw : WorldRel ⟨sides ⟨stA', posA'⟩ ⟨stB, posB⟩, []⟩
      ⟨sides ⟨(bsA.processBundle A posA addrB b).2.1, (bsA.processBundle A posA addrB b).2.2⟩ ⟨bsB, posB⟩, []⟩ := by
    refine ⟨fun s => ?_, rfl⟩
    cases s with
    | alice => exact ⟨e2, e3⟩
    | bob => exact ⟨hB.rel, rfl⟩
  rw [hw.run]
  exact C03_conversation hdh haes evs h hn ht outs ho

section
open Toy

/-- Bob's stores as bytes. -/
def bobBytes : ByteStore :=
  { sessions := fun _ => none, identities := fun _ => none,
    preKeys := fun i => if i = 9 then some (PreKeyStruct.toJson (newPreKey 9 oneTime).struct).enc else none,
    signedPreKeys := fun i => if i = 7 then some (SignedPreKeyStruct.toJson (newSignedPreKey 7 1234 signedPre sig0).struct).enc else none }

theorem bob_stored : HoldsBytes bobStore bobBytes := by
  refine ⟨fun a => .inl ⟨rfl, rfl⟩, rfl, fun id => ?_, fun id => ?_⟩
  · by_cases h : id = 9
    · subst h; exact .inr ⟨oneTime, _, rfl, rfl, rfl⟩
    · exact .inl ⟨if_neg h, if_neg h⟩
  · by_cases h : id = 7
    · subst h; exact .inr ⟨signedPre, 1234, sig0, _, rfl, rfl, rfl⟩
    · exact .inl ⟨if_neg h, if_neg h⟩

/-- Alice starts with nothing. -/
def aliceBytes : ByteStore := ⟨fun _ => none, fun _ => none, fun _ => none, fun _ => none⟩
theorem alice_stored : HoldsBytes emptyStore aliceBytes :=
  ⟨fun _ => .inl ⟨rfl, rfl⟩, rfl, fun _ => .inl ⟨rfl, rfl⟩, fun _ => .inl ⟨rfl, rfl⟩⟩

set_option maxRecDepth 100000 in
/-- Non-vacuity: Bob, with nothing but bytes, decrypts Alice's first message. -/
example : ((bobBytes.decryptPreKey bobEnv 0 Toy.alice msg1).1.map (·.1)) = .ok [104, 105] := by
  rw [(bob_stored.rel.decryptPreKey bobEnv 0 Toy.alice msg1).1]
  decide +kernel

/-- Non-vacuity: the toy conversation with byte stores. -/
example (outs : List Outcome) (ho : Conv.start.run toyTalk = some outs) :
    All2 Matches outs (ByteWorld.run (sides aliceEnv bobEnv) (sides Toy.alice Toy.bob)
      ⟨sides ⟨(aliceBytes.processBundle aliceEnv 0 Toy.bob bundle).2.1, (aliceBytes.processBundle aliceEnv 0 Toy.bob bundle).2.2⟩ ⟨bobBytes, 0⟩, []⟩ toyTalk) :=
  (C63_conversation Toy.dhLaw Toy.aesLaw toyTalk toy_meeting (by decide) (by intro s t h; simp [toyTalk] at h; rcases h with ⟨-, rfl⟩ | ⟨-, rfl⟩ | ⟨-, rfl⟩ | ⟨-, rfl⟩ | ⟨-, rfl⟩ | ⟨-, rfl⟩ | ⟨-, rfl⟩ <;> decide) outs ho _ _ alice_stored bob_stored).2

end

end Verif

import Verif.Model.Handles
import Verif.Props.Stores
import Verif.Props.Groups2
import Verif.Proofs.ToyFlow
/-
C104: the calls of a cipher concern the address the cipher was made for, however the cipher was constructed.

True when the builder was made for the same address (`C104_matching_partial`); the exact effect of a builder made for another address is `C104_mixed_effect`; what no construction can do is
`C104_isolation_partial`.  False in general: `C104_from_session_false` (a cipher made by `NewCipherFromSession` panics on every prekey message), `C104_other_builder_false` (a key not trusted for
the cipher's address is accepted because it is trusted for the builder's) and `C104_group_no_builder_false`.
-/
namespace Verif

/-- The effect of processing for `b` a prekey message of `a`'s session, compared with processing it for `a`: the identity is saved for `b`. -/
def Effect.redirect (b : Addr) : Effect → Effect
  | .saveIdentity _ k => .saveIdentity b k
  | e => e

theorem decryptMessageRec_same (E : Env) (ids : Addr → Option Key32) (pk spk : UInt32 → Option IdKeyPair) (pos : Nat) (a : Addr) (r : Rec) (m : PreKeyMsg) :
    decryptMessageRec E ids pk spk pos a a r m =
      ((decryptPreKeyRec E ids pk spk pos a r m).1, (decryptPreKeyRec E ids pk spk pos a r m).2.2) := by
  unfold decryptMessageRec decryptPreKeyRec
  rcases process E ids pk spk a r m with ⟨res, r1, eff⟩
  cases res with
  | err e => rfl
  | panic => rfl
  | ok id =>
    simp only
    rcases decryptWithRecord E pos r1 m.message with ⟨res2, r2, p2⟩
    cases res2 with
    | err e => rfl
    | panic => rfl
    | ok x =>
      cases id with
      | none => rfl
      | some o => simp only; split <;> rfl

/-- **C104, matching addresses.** A cipher made for `a` with a builder made for `a` does exactly the call for `a`: every theorem about the calls for an address is about this cipher. -/
theorem C104_matching_partial (E : Env) (st : Store) (pos : Nat) (a : Addr) :
    (∀ m, (newCipher (newBuilder a) a).decryptMessage E st pos m = st.decryptPreKey E pos a m) ∧
    (∀ m, (newCipher (newBuilder a) a).decrypt E st pos m = st.decrypt E pos a m) ∧
    (∀ pt, (newCipher (newBuilder a) a).encrypt E st pt = st.encrypt E a pt) ∧
    (∀ bn, (newBuilder a).processBundle E st pos bn = st.processBundle E pos a bn) := by
  refine ⟨fun m => ?_, fun _ => rfl, fun _ => rfl, fun _ => rfl⟩
  simp only [Cipher.decryptMessage, Cipher.decryptMessageTrace, newCipher, newBuilder, Store.decryptPreKey, Store.decryptPreKeyTrace]
  cases st.load a with
  | ok r => simp only [decryptMessageRec_same]
  | err e => rfl
  | panic => rfl

/-- The address-dependence of `Process`: the trust question and the identity to save. -/
theorem process_redirect (E : Env) (ids : Addr → Option Key32) (pk spk : UInt32 → Option IdKeyPair) (a b : Addr) (r : Rec) (m : PreKeyMsg) :
    process E ids pk spk b r m =
      ((process { E with trusted := fun ids _ k => E.trusted ids b k } ids pk spk a r m).1,
       (process { E with trusted := fun ids _ k => E.trusted ids b k } ids pk spk a r m).2.1,
       (process { E with trusted := fun ids _ k => E.trusted ids b k } ids pk spk a r m).2.2.map (Effect.redirect b)) := by
  unfold process
  have hv : processV3 { E with trusted := fun ids _ k => E.trusted ids b k } pk spk r m = processV3 E pk spk r m := rfl
  rw [hv]
  simp only
  by_cases h : E.trusted ids b m.identityKey = false
  · simp [h]
  · simp only [if_neg h]
    rcases processV3 E pk spk r m with ⟨res, r1⟩
    cases res <;> rfl

/-- The trust policy plays no part in decrypting with a record. -/
theorem decryptWithRecord_trust (E : Env) (t : (Addr → Option Key32) → Addr → Key32 → Bool) (pos : Nat) (r : Rec) (m : SignalMsg) :
    decryptWithRecord { E with trusted := t } pos r m = decryptWithRecord E pos r m := by
  have hs : ∀ d s m, decryptWithState { E with trusted := t } d s m = decryptWithState E d s m := fun _ _ _ => rfl
  have hp : ∀ m l i r pos, tryPrevious { E with trusted := t } m l i r pos = tryPrevious E m l i r pos := by
    intro m l
    induction l with
    | nil => intros; rfl
    | cons a l ih =>
      intro i r pos
      simp only [tryPrevious, hs]
      split
      · exact ih _ _ _
      · rfl
      · rfl
  simp only [decryptWithRecord, hs, hp]

theorem decryptMessageRec_redirect (E : Env) (ids : Addr → Option Key32) (pk spk : UInt32 → Option IdKeyPair) (pos : Nat) (a b : Addr) (r : Rec) (m : PreKeyMsg) :
    decryptMessageRec E ids pk spk pos b a r m =
      ((decryptPreKeyRec { E with trusted := fun ids _ k => E.trusted ids b k } ids pk spk pos a r m).1,
       (decryptPreKeyRec { E with trusted := fun ids _ k => E.trusted ids b k } ids pk spk pos a r m).2.2.1,
       (decryptPreKeyRec { E with trusted := fun ids _ k => E.trusted ids b k } ids pk spk pos a r m).2.2.2.map (Effect.redirect b)) := by
  unfold decryptMessageRec decryptPreKeyRec
  rw [process_redirect E ids pk spk a b r m]
  rcases process { E with trusted := fun ids _ k => E.trusted ids b k } ids pk spk a r m with ⟨res, r1, eff⟩
  cases res with
  | err e => rfl
  | panic => rfl
  | ok id =>
    simp only
    have hd : decryptWithRecord { E with trusted := fun ids _ k => E.trusted ids b k } pos r1 m.message = decryptWithRecord E pos r1 m.message :=
      decryptWithRecord_trust E _ pos r1 m.message
    rw [hd]
    rcases decryptWithRecord E pos r1 m.message with ⟨res2, r2, p2⟩
    cases res2 with
    | err e => rfl
    | panic => rfl
    | ok x =>
      cases id with
      | none => simp [Effect.redirect]
      | some o => simp only; split <;> simp [Effect.redirect]

/-- Two stores that differ at most in the saved identities. -/
def Store.SameButIdentities (s t : Store) : Prop := s.sessions = t.sessions ∧ s.preKeys = t.preKeys ∧ s.signedPreKeys = t.signedPreKeys

theorem applyAll_redirect (b : Addr) (effs : List Effect) : ∀ (s t : Store), s.SameButIdentities t →
    (s.applyAll (effs.map (Effect.redirect b))).1.SameButIdentities (t.applyAll effs).1 ∧ (s.applyAll (effs.map (Effect.redirect b))).2 = (t.applyAll effs).2 := by
  induction effs with
  | nil => intro s t h; exact ⟨h, rfl⟩
  | cons e effs ih =>
    intro s t h
    simp only [List.map_cons, Store.applyAll]
    cases e with
    | saveIdentity c k =>
      simp only [Effect.redirect, Store.apply]
      exact ih _ _ h
    | removePreKey id =>
      simp only [Effect.redirect, Store.apply]
      exact ih _ _ ⟨h.1, by simp only; rw [h.2.1], h.2.2⟩
    | storeSession c r =>
      simp only [Effect.redirect, Store.apply]
      cases r.toStruct with
      | ok x => exact ih _ _ ⟨by simp only; rw [h.1], h.2⟩
      | err e => exact ⟨h, rfl⟩
      | panic => exact ⟨h, rfl⟩

theorem decryptMessageRec_shape (E : Env) (ids : Addr → Option Key32) (pk spk : UInt32 → Option IdKeyPair) (pos : Nat) (a b : Addr) (r : Rec) (m : PreKeyMsg) :
    ((decryptMessageRec E ids pk spk pos b a r m).2.2 = [] ∧ (decryptMessageRec E ids pk spk pos b a r m).1.isOk = false) ∨
    (E.trusted ids b m.identityKey = true ∧ ∃ rest : List Effect, (decryptMessageRec E ids pk spk pos b a r m).2.2 = .saveIdentity b (some m.identityKey) :: rest ∧
      ∀ e ∈ rest, (∃ r, e = .storeSession a r) ∨ ∃ i, e = .removePreKey i) := by
  unfold decryptMessageRec process
  by_cases ht : E.trusted ids b m.identityKey = false
  · left; simp [ht, Res.isOk]
  · simp only [if_neg ht]
    have ht' : E.trusted ids b m.identityKey = true := by simpa using ht
    rcases processV3 E pk spk r m with ⟨res, r1⟩
    cases res with
    | err e => left; exact ⟨rfl, rfl⟩
    | panic => left; exact ⟨rfl, rfl⟩
    | ok id =>
      right
      refine ⟨ht', ?_⟩
      simp only
      rcases decryptWithRecord E pos r1 m.message with ⟨res2, r2, p2⟩
      cases res2 with
      | err e => exact ⟨[], rfl, by simp⟩
      | panic => exact ⟨[], rfl, by simp⟩
      | ok x =>
        cases id with
        | none => exact ⟨_, rfl, by simp⟩
        | some o =>
          simp only
          split
          · exact ⟨_, rfl, by simp⟩
          · exact ⟨_, rfl, by simp⟩

theorem applyAll_identities (a : Addr) (effs : List Effect) (h : ∀ e ∈ effs, (∃ r, e = .storeSession a r) ∨ ∃ i, e = .removePreKey i) :
    ∀ st : Store, (st.applyAll effs).1.identities = st.identities ∧ ∀ c, c ≠ a → (st.applyAll effs).1.sessions c = st.sessions c := by
  induction effs with
  | nil => intro st; exact ⟨rfl, fun _ _ => rfl⟩
  | cons e effs ih =>
    intro st
    have ih := ih (fun e he => h e (List.mem_cons_of_mem _ he))
    simp only [Store.applyAll]
    rcases h e List.mem_cons_self with ⟨r, rfl⟩ | ⟨i, rfl⟩
    · simp only [Store.apply]
      cases r.toStruct with
      | err e => exact ⟨rfl, fun _ _ => rfl⟩
      | panic => exact ⟨rfl, fun _ _ => rfl⟩
      | ok x =>
        simp only
        refine ⟨(ih _).1, fun c hc => ((ih _).2 c hc).trans ?_⟩
        simp [upd, hc]
    · simp only [Store.apply]
      exact ⟨(ih _).1, fun c hc => (ih _).2 c hc⟩

/-- **C104, differing addresses: the exact effect.** A prekey message given to a cipher for `a` whose builder is for `b` is treated as a message of `a`'s session, with trust asked for `b`
instead of `a`: same result, sessions, prekeys and signed prekeys as the call for `a` under the policy "trusted for `b`".  The sender's identity key is saved under `b` when it was accepted, and
under no other address. -/
theorem C104_mixed_effect (E : Env) (st : Store) (pos : Nat) (a b : Addr) (m : PreKeyMsg) :
    let asB : Env := { E with trusted := fun ids _ k => E.trusted ids b k }
    let y := (newCipher (newBuilder b) a).decryptMessage E st pos m
    let x := st.decryptPreKey asB pos a m
    y.1 = x.1 ∧ y.2.2 = x.2.2 ∧ y.2.1.SameButIdentities x.2.1 ∧
    (y.2.1.identities = st.identities ∧ y.1.isOk = false ∨
      E.trusted st.identities b m.identityKey = true ∧ y.2.1.identities = upd st.identities b (some m.identityKey)) := by
  simp only [Cipher.decryptMessage, Cipher.decryptMessageTrace, newCipher, newBuilder, Store.decryptPreKey, Store.decryptPreKeyTrace]
  cases st.load a with
  | err e => simp [finish, Store.applyAll, Store.SameButIdentities, Res.isOk]
  | panic => simp [finish, Store.applyAll, Store.SameButIdentities, Res.isOk]
  | ok r =>
    simp only
    have hs := decryptMessageRec_shape E st.identities st.preKeys st.signedPreKeys pos a b r m
    have hr := decryptMessageRec_redirect E st.identities st.preKeys st.signedPreKeys pos a b r m
    generalize decryptMessageRec E st.identities st.preKeys st.signedPreKeys pos b a r m = y at hs hr ⊢
    generalize decryptPreKeyRec _ st.identities st.preKeys st.signedPreKeys pos a r m = x at hr ⊢
    obtain ⟨y1, y2, y3⟩ := y
    obtain ⟨x1, x2, x3, x4⟩ := x
    simp only [Prod.mk.injEq] at hr
    obtain ⟨rfl, rfl, rfl⟩ := hr
    simp only at hs ⊢
    have ha := applyAll_redirect b x4 st st ⟨rfl, rfl, rfl⟩
    refine ⟨?_, ?_, ?_, ?_⟩
    · rw [finish_fst, finish_fst, ha.2]
    · trivial
    · rw [finish_snd, finish_snd]; exact ha.1
    · rcases hs with ⟨h1, h2⟩ | ⟨ht, rest, h1, h2⟩
      · left
        rw [h1]
        exact ⟨by rw [finish_snd]; rfl, by rw [finish_fst]; exact h2⟩
      · right
        refine ⟨ht, ?_⟩
        rw [h1, finish_snd]
        simp only [Store.applyAll, Store.apply]
        exact (applyAll_identities a rest h2 _).1

/-- **C104, what holds however the cipher was constructed.** No call of a cipher for `a` changes the session of another address; no call changes the saved identity of an address other than the
cipher's and its builder's; only a cipher with a builder changes a saved identity when it receives. -/
theorem C104_isolation_partial (E : Env) (st : Store) (pos : Nat) (c : Cipher) (d : Addr) :
    (d ≠ c.addr → (∀ m, (c.decryptMessage E st pos m).2.1.sessions d = st.sessions d) ∧ (∀ m, (c.decrypt E st pos m).2.1.sessions d = st.sessions d) ∧
      (∀ pt, (c.encrypt E st pt).2.sessions d = st.sessions d)) ∧
    (d ≠ c.addr → (∀ m, (c.decrypt E st pos m).2.1.identities d = st.identities d) ∧ (∀ pt, (c.encrypt E st pt).2.identities d = st.identities d)) ∧
    ((∀ b, c.builder = some b → d ≠ b.addr) → ∀ m, (c.decryptMessage E st pos m).2.1.identities d = st.identities d) := by
  have hmix : ∀ b m, c.builder = some b →
      ((c.decryptMessage E st pos m).2.1.sessions = (st.decryptPreKey { E with trusted := fun ids _ k => E.trusted ids b.addr k } pos c.addr m).2.1.sessions) ∧
      (d ≠ b.addr → (c.decryptMessage E st pos m).2.1.identities d = st.identities d) := by
    intro b m hb
    have hc : c = newCipher (newBuilder b.addr) c.addr := by cases c; cases hb; rfl
    have h := C104_mixed_effect E st pos c.addr b.addr m
    simp only [← hc] at h
    obtain ⟨-, -, h3, h4⟩ := h
    refine ⟨h3.1, fun hd => ?_⟩
    rcases h4 with ⟨h4, -⟩ | ⟨-, h4⟩
    · rw [h4]
    · rw [h4]; simp [upd, hd]
  have hnone : ∀ m, c.builder = none → (c.decryptMessage E st pos m).2.1 = st := by
    intro m hb
    simp only [Cipher.decryptMessage, Cipher.decryptMessageTrace, hb]
    cases st.load c.addr <;> rfl
  refine ⟨fun hd => ⟨fun m => ?_, fun m => ?_, fun pt => ?_⟩, fun hd => ⟨fun m => ?_, fun pt => ?_⟩, fun hd m => ?_⟩
  · cases hb : c.builder with
    | none => rw [hnone m hb]
    | some b => rw [(hmix b m hb).1]; exact ((C42_isolation _ st pos c.addr d hd).2.2.1 m).1
  · exact ((C42_isolation E st pos c.addr d hd).2.1 m).1
  · exact ((C42_isolation E st pos c.addr d hd).1 pt).1
  · exact ((C42_isolation E st pos c.addr d hd).2.1 m).2
  · exact ((C42_isolation E st pos c.addr d hd).1 pt).2
  · cases hb : c.builder with
    | none => rw [hnone m hb]
    | some b => exact (hmix b m hb).2 (hd b hb)

/-- **C104 is false for ciphers made by `NewCipherFromSession`**: whatever the store whose session can be loaded, whatever the prekey message, `DecryptMessage` panics, changing nothing — also on
messages that the cipher made by `NewCipher` decrypts (`C104_from_session_example`).  Sending and receiving other messages work (`C104_from_session_otherwise`). -/
theorem C104_from_session_false (E : Env) (st : Store) (pos : Nat) (a : Addr) (m : PreKeyMsg) (r : Rec) (h : st.load a = .ok r) :
    (newCipherFromSession a).decryptMessage E st pos m = (.panic, st, pos) := by
  simp [Cipher.decryptMessage, Cipher.decryptMessageTrace, newCipherFromSession, h, finish, Store.applyAll]

/-- The other calls of a cipher made by `NewCipherFromSession` are those of the cipher made by `NewCipher`, whatever its builder. -/
theorem C104_from_session_otherwise (E : Env) (st : Store) (pos : Nat) (a : Addr) (b : Builder) :
    (newCipherFromSession a).decrypt E st pos = (newCipher b a).decrypt E st pos ∧ (newCipherFromSession a).encrypt E st = (newCipher b a).encrypt E st :=
  ⟨rfl, rfl⟩

set_option maxRecDepth 100000 in
/-- The genuine first message of a session: the cipher made by `NewCipher` decrypts it, the cipher made by `NewCipherFromSession` panics. -/
theorem C104_from_session_example :
    ((newCipher (newBuilder Toy.alice) Toy.alice).decryptMessage Toy.bobEnv Toy.bob1 1 Toy.msg2).1.isOk = true ∧
    ((newCipherFromSession Toy.alice).decryptMessage Toy.bobEnv Toy.bob1 1 Toy.msg2).1 = .panic := by
  refine ⟨by decide +kernel, ?_⟩
  have hl : (Toy.bob1.load Toy.alice).isOk = true := by decide +kernel
  cases h : Toy.bob1.load Toy.alice with
  | err e => rw [h] at hl; cases hl
  | panic => rw [h] at hl; cases hl
  | ok r => rw [C104_from_session_false _ _ _ _ _ r h]

section
open Toy

/-- Bob's stores, in which another key is saved for Alice (so that hers is not trusted for her address). -/
def distrusting : Store := { bobStore with identities := fun x => if x = alice then some (key 66) else none }
/-- A third party's address, for which nothing is saved. -/
def thirdParty : Addr := ⟨"thirdParty", 1⟩

set_option maxRecDepth 100000 in
/-- **C104 is false for a builder made for another address.** The identity key of the message is not trusted for Alice, and the cipher whose builder is Alice's refuses the message; the cipher for
Alice whose builder is Carol's decrypts it, creates Alice's session and saves the key as Carol's. -/
theorem C104_other_builder_false :
    bobEnv.trusted distrusting.identities alice msg1.identityKey = false ∧
    ((newCipher (newBuilder alice) alice).decryptMessage bobEnv distrusting 0 msg1).1 = .err .untrustedIdentity ∧
    ((newCipher (newBuilder thirdParty) alice).decryptMessage bobEnv distrusting 0 msg1).1.isOk = true ∧
    distrusting.sessions alice = none ∧ distrusting.identities thirdParty = none ∧
    (((newCipher (newBuilder thirdParty) alice).decryptMessage bobEnv distrusting 0 msg1).2.1.sessions alice).isSome = true ∧
    ((newCipher (newBuilder thirdParty) alice).decryptMessage bobEnv distrusting 0 msg1).2.1.identities thirdParty = some msg1.identityKey ∧
    ((newCipher (newBuilder thirdParty) alice).decryptMessage bobEnv distrusting 0 msg1).2.1.identities alice = some (key 66) := by
  refine ⟨by decide +kernel, by decide +kernel, by decide +kernel, by decide +kernel, by decide +kernel, by decide +kernel, by decide +kernel, by decide +kernel⟩
end

/-! ### The group cipher -/

/-- **C104, groups.** A group cipher made with a builder does exactly the calls for its name; whatever the builder, even nil, it receives like any other, and no call changes the record of another
name. -/
theorem C104_group (C : Crypto) (S : Ser SKStruct) (rand : Arr 64) (st : GStore) (n k : SenderKeyName) (B : Option (Ser SKStruct)) :
    (∀ pt, (newGroupCipher (some S) n).encrypt C rand st pt = st.encrypt C S rand n pt) ∧
    (∀ m, (newGroupCipher B n).decrypt C S st m = st.decrypt C S n m) ∧
    (k ≠ n → (∀ pt, ((newGroupCipher B n).encrypt C rand st pt).2.recs k = st.recs k) ∧ ∀ m, ((newGroupCipher B n).decrypt C S st m).2.recs k = st.recs k) := by
  refine ⟨fun _ => rfl, fun _ => rfl, fun hk => ⟨fun pt => ?_, fun m => ?_⟩⟩
  · cases B with
    | none =>
      simp only [GroupCipher.encrypt, newGroupCipher]
      repeat' split
      all_goals rfl
    | some S =>
      simp only [GroupCipher.encrypt, newGroupCipher, GStore.encrypt]
      split
      · rfl
      · rfl
      · split
        · simp [GStore.save, hk]
        · rfl
  · simp only [GroupCipher.decrypt, newGroupCipher, GStore.decrypt]
    split
    · rfl
    · rfl
    · split
      · simp [GStore.save, hk]
      · rfl

/-- **C104 is false for a group cipher made without a builder**: it panics on every message to send that the cipher with a builder sends, and nothing is stored. -/
theorem C104_group_no_builder_false (C : Crypto) (S : Ser SKStruct) (rand : Arr 64) (st : GStore) (n : SenderKeyName) (pt : Bytes)
    (h : (st.encrypt C S rand n pt).1.isOk = true) : (newGroupCipher none n).encrypt C rand st pt = (.panic, st) := by
  simp only [GroupCipher.encrypt, newGroupCipher]
  unfold GStore.encrypt at h
  cases hl : st.load n with
  | err e => rw [hl] at h; cases h
  | panic => rfl
  | ok r =>
    rw [hl] at h
    cases r with
    | none => rfl
    | some r =>
      cases r with
      | nil => simp [groupEncrypt, Res.isOk] at h
      | cons s rest =>
        simp only [groupEncrypt] at h ⊢
        cases hk : s.chain.msgKey C with
        | err e => rw [hk] at h; simp [Res.bind, Res.isOk] at h
        | panic => rfl
        | ok mk =>
          rw [hk] at h
          simp only [Res.bind] at h ⊢
          cases he : encryptCbc C none (some mk.iv) mk.cipherKey pt with
          | err e => rw [he] at h; simp [Res.isOk] at h
          | panic => rfl
          | ok ct => rfl

set_option maxRecDepth 100000 in
/-- Non-vacuity: a sender's store on which a cipher with a builder sends, and a cipher without one panics. -/
example : (gSender.encrypt Toy.C protoSK gRand gName [1, 2]).1.isOk = true ∧ (newGroupCipher none gName).encrypt Toy.C gRand gSender [1, 2] = (.panic, gSender) :=
  have h : (gSender.encrypt Toy.C protoSK gRand gName [1, 2]).1.isOk = true := by decide +kernel
  ⟨h, C104_group_no_builder_false Toy.C protoSK gRand gSender gName [1, 2] h⟩

end Verif

import Verif.Proofs.Talk
import Verif.Props.Wire
import Verif.Model.World
/- Encrypt, Decrypt and DecryptMessage against a store holding one session state. -/
set_option linter.unusedSimpArgs false
namespace Verif

theorem Ready.isSome {st : Store} {a : Addr} {s : SState} {ps : List SState} (h : Ready st a s ps) : (st.sessions a).isSome := by
  cases hs : st.sessions a with
  | some x => rfl
  | none =>
    have := h.load
    simp only [Store.load, hs, Res.ok.injEq] at this
    have h2 : Rec.new.fresh = (Rec.ofStates s ps).fresh := by rw [this]
    simp [Rec.new, Rec.ofStates] at h2

theorem ofStates_single_set (s s' : SState) :
    ((Rec.ofStates s []).set (Rec.ofStates s []).cur s').prevStates = [] := by
  rw [(ofStates_set_cur s s' []).2]

/-- The first attempt is with the current state; when it succeeds the archived states are not touched. -/
theorem decryptWithRecord_current {E : Env} {pos : Nat} {r : Rec} {m : SignalMsg} {x : Bytes × MsgKeys} {s' : SState} {d : Bool}
    (hd : decryptWithState E (E.rng pos) r.state m = (.ok x, s', d)) : decryptWithRecord E pos r m = (.ok x, r.set r.cur s', bump pos d) := by
  unfold decryptWithRecord
  unfold Rec.state at hd
  rw [hd]

/-- Decrypt with the current state: success. -/
theorem Ready.decrypt_ok {E : Env} {st : Store} {a : Addr} {s s' : SState} {ps : List SState} {m : SignalMsg} {x : Bytes × MsgKeys} {d : Bool} {pos : Nat}
    (h : Ready st a s ps) (hd : decryptWithState E (E.rng pos) s m = (.ok x, s', d)) :
    ∃ st', st.decrypt E pos a m = (.ok x, st', bump pos d) ∧ Ready st' a s' ps ∧ st'.preKeys = st.preKeys ∧
      st'.signedPreKeys = st.signedPreKeys ∧ st'.identities = upd st.identities a s'.remoteIdentity := by
  have hi := decryptWithState_initialised hd h.init
  have hk := decryptWithState_kept E (E.rng pos) s m
  rw [hd] at hk
  have hset := ofStates_set_cur s s' ps
  obtain ⟨str, hstr⟩ := toStruct_of_init (r := (Rec.ofStates s ps).set (Rec.ofStates s ps).cur s') (by
    rw [hset.1, hset.2]; intro y hy
    rcases List.mem_cons.1 hy with rfl | hy
    · exact hi
    · exact h.inits y hy)
  have hdr : decryptWithRecord E pos (Rec.ofStates s ps) m =
      (.ok x, (Rec.ofStates s ps).set (Rec.ofStates s ps).cur s', bump pos d) :=
    decryptWithRecord_current (by rw [ofStates_state]; exact hd)
  have htr : st.decryptTrace E pos a m = (.ok x, bump pos d,
      [.saveIdentity a s'.remoteIdentity, .storeSession a ((Rec.ofStates s ps).set (Rec.ofStates s ps).cur s')]) := by
    unfold Store.decryptTrace
    cases hs : st.sessions a with
    | none => have := h.isSome; rw [hs] at this; simp at this
    | some y => simp only [h.load, decryptRec, hdr, hset.1]
  refine ⟨{ st with identities := upd st.identities a s'.remoteIdentity, sessions := upd st.sessions a (some str) }, ?_, ?_, rfl, rfl, rfl⟩
  · simp only [Store.decrypt, htr, finish, Store.applyAll, Store.apply, hstr]
  · exact h.stored hstr hset.1 hset.2 hi (by rw [hk.version]; exact h.version) _

/-- Decrypt with a store holding one state: failure. -/
theorem Ready.decrypt_err {E : Env} {st : Store} {a : Addr} {s s' : SState} {m : SignalMsg} {e : Err} {d : Bool} {pos : Nat}
    (h : Ready st a s []) (hd : decryptWithState E (E.rng pos) s m = (.err e, s', d)) :
    st.decrypt E pos a m = (.err .noValidSessions, st, bump pos d) := by
  have hdr : decryptWithRecord E pos (Rec.ofStates s []) m =
      (.err .noValidSessions, (Rec.ofStates s []).set (Rec.ofStates s []).cur s', bump pos d) := by
    rw [decryptWithRecord_single rfl, ofStates_state, hd]
  have htr : st.decryptTrace E pos a m = (.err .noValidSessions, bump pos d, []) := by
    unfold Store.decryptTrace
    cases hs : st.sessions a with
    | none => have := h.isSome; rw [hs] at this; simp at this
    | some y => simp only [h.load, decryptRec, hdr]
  simp only [Store.decrypt, htr, finish, Store.applyAll]

/-- DecryptMessage with the state that processing leaves current: success. -/
theorem Store.decryptPreKey_current_ok {E : Env} {st : Store} {a : Addr} {r rr : Rec} {m : PreKeyMsg} {id : OptU32} {s' : SState}
    {x : Bytes × MsgKeys} {d : Bool} {pos : Nat} (hl : st.load a = .ok r)
    (hp : process E st.identities st.preKeys st.signedPreKeys a r m = (.ok (some id), rr, [.saveIdentity a (some m.identityKey)]))
    (hcur : rr.cur ∉ rr.prev) (hin : ∀ y ∈ rr.prevStates, y.Initialised)
    (hd : decryptWithState E (E.rng pos) rr.state m.message = (.ok x, s', d)) (hi : rr.state.Initialised)
    (hv : rr.state.version = currentVersion) :
    ∃ st', st.decryptPreKey E pos a m = (.ok x, st', bump pos d) ∧ Ready st' a s' rr.prevStates ∧
      st'.preKeys = (if id.isEmpty then st.preKeys else upd st.preKeys id.value none) ∧
      st'.signedPreKeys = st.signedPreKeys ∧ st'.identities = upd st.identities a (some m.identityKey) := by
  have hi' := decryptWithState_initialised hd hi
  have hk := decryptWithState_kept E (E.rng pos) rr.state m.message
  rw [hd] at hk
  have hst : (rr.set rr.cur s').state = s' := by simp [Rec.state]
  have hps : (rr.set rr.cur s').prevStates = rr.prevStates := by
    unfold Rec.prevStates
    apply List.map_congr_left
    intro b hb
    simp only [Rec.set]
    rw [if_neg]; rintro rfl; exact hcur hb
  obtain ⟨str, hstr⟩ := toStruct_of_init (r := rr.set rr.cur s') (by
    rw [hst, hps]; intro y hy
    rcases List.mem_cons.1 hy with rfl | hy
    · exact hi'
    · exact hin y hy)
  have hdr : decryptWithRecord E pos rr m.message = (.ok x, rr.set rr.cur s', bump pos d) := decryptWithRecord_current hd
  have hready : ∀ st' : Store, st'.sessions a = some str → Ready st' a s' rr.prevStates := by
    intro st' hs
    refine ⟨?_, hi', hin, by rw [hk.version]; exact hv⟩
    rw [Store.load_stored hstr hs, hst, hps]
  by_cases ho : id.isEmpty
  · refine ⟨{ st with identities := upd st.identities a (some m.identityKey), sessions := upd st.sessions a (some str) }, ?_,
      hready _ (by simp [upd]), by simp [ho], rfl, rfl⟩
    simp only [Store.decryptPreKey, Store.decryptPreKeyTrace, hl, decryptPreKeyRec, hp, hdr, ho, if_true, finish, List.cons_append,
      List.nil_append, Store.applyAll, Store.apply, hstr]
  · refine ⟨{ st with identities := upd st.identities a (some m.identityKey), sessions := upd st.sessions a (some str),
                      preKeys := upd st.preKeys id.value none }, ?_, hready _ (by simp [upd]), by simp [ho], rfl, rfl⟩
    simp only [Store.decryptPreKey, Store.decryptPreKeyTrace, hl, decryptPreKeyRec, hp, hdr, ho, if_false, finish, List.cons_append,
      List.nil_append, Store.applyAll, Store.apply, hstr, Bool.false_eq_true]

/-- … and failure. -/
theorem Store.decryptPreKey_single_err {E : Env} {st : Store} {a : Addr} {r rr : Rec} {m : PreKeyMsg} {id : OptU32} {s' : SState}
    {e : Err} {d : Bool} {pos : Nat} (hl : st.load a = .ok r)
    (hp : process E st.identities st.preKeys st.signedPreKeys a r m = (.ok (some id), rr, [.saveIdentity a (some m.identityKey)]))
    (hprev : rr.prev = []) (hd : decryptWithState E (E.rng pos) rr.state m.message = (.err e, s', d)) :
    st.decryptPreKey E pos a m = (.err .noValidSessions, { st with identities := upd st.identities a (some m.identityKey) }, bump pos d) := by
  have hdr : decryptWithRecord E pos rr m.message = (.err .noValidSessions, rr.set rr.cur s', bump pos d) := by
    rw [decryptWithRecord_single hprev, hd]
  simp only [Store.decryptPreKey, Store.decryptPreKeyTrace, hl, decryptPreKeyRec, hp, hdr, finish, Store.applyAll, Store.apply]

/-! ### The wire -/

theorem protoSM_ser_length (st : SMStruct) (b : Bytes) (h : protoSM.ser st = .ok b) (hv : st.version = currentVersion) :
    b.length ≤ 101 + (st.ratchetKey.getD []).length + (st.cipherText.getD []).length + (st.mac.getD []).length := by
  have e := encVarintAux_le 10
  simp only [protoSM, smSer, Res.ok.injEq] at h
  subst h
  have h8 : ∀ n, (encVarint n).length ≤ 10 := fun n => e n
  have hb : ∀ t o, (putBytes t o).length ≤ 20 + (o.getD []).length := by
    intro t o
    cases o with
    | none => simp [putBytes]
    | some b =>
      simp only [putBytes, List.length_append, Option.getD_some]
      have := h8 (t * 8 + 2); have := h8 b.length
      omega
  have hu : ∀ t v, (putU32 t v).length ≤ 20 := by
    intro t v
    simp only [putU32, List.length_append]
    have := h8 (t * 8); have := h8 v.toNat
    omega
  have hv0 : (currentVersion : Int) ≠ 0 := by decide
  simp only [smMarshal, hv, List.length_append]
  rw [if_pos hv0, itoa_current]
  have := hb 1 st.ratchetKey; have := hb 4 st.cipherText; have := hu 2 st.counter; have := hu 3 st.previousCounter
  simp only [List.length_singleton]
  omega

/-- The messages a party sends, as they arrive: parsed to a message with the right keys. -/
theorem Holds.encrypt {C : Crypto} (hA : C.AesLaw) {E : Env} (hC : E.C = C) (hstd : Std E.S E.P) {k0 : SessionKeys} {es : Nat → Key32}
    {me peer : Key32} {s : SState} {p : Talk.Party} (h : Holds C k0 es me peer s p) {st : Store} {a : Addr} {ps : List SState} (hr : Ready st a s ps)
    {pt : Bytes} (hpt : pt.length < 2 ^ 63) (hsmall : p.sent + 1 < 2 ^ 32)
    (hpp : ∀ pp, s.pendingPreKey = some pp → ∃ id, pp.preKeyId = some (OptU32.new id)) :
    ∃ cm, (st.encrypt E a pt).1 = .ok cm ∧ Ready (st.encrypt E a pt).2 a (s.advance C) ps ∧
      Holds C k0 es me peer (s.advance C) { p with sent := p.sent + 1 } ∧
      ((s.pendingPreKey = none ∧ ∃ b m, pack E cm = .ok (.signal b) ∧ newSignalMessageFromBytes E.S b = .ok m ∧
          Honest C E.S k0 es me peer p.turn p.sent pt m) ∨
       (∃ pp, s.pendingPreKey = some pp ∧ ∃ b pm, pack E cm = .ok (.preKey b) ∧ newPreKeyMessageFromBytes E.P E.S b = .ok pm ∧
          Honest C E.S k0 es me peer p.turn p.sent pt pm.message ∧ pm.baseKey = pp.baseKey ∧ pm.identityKey = me ∧
          pm.struct.preKeyId = pp.preKeyId ∧ pm.struct.signedPreKeyId = pp.signedPreKeyId ∧ pm.struct.version = currentVersion ∧
          pm.struct.registrationId = s.localRegistrationId)) := by
  subst hC
  obtain ⟨cm, he, hout, hready⟩ := hr.step hstd.sm pt hpt
  obtain ⟨sc, body, sm, hsc, hb, hm, -, hcase⟩ := encryptState_ok he
  rw [h.sender] at hsc
  cases hsc
  have hidx : ((level E.C k0 es p.turn).chain.iter E.C p.sent).index.toNat = p.sent := by
    rw [ChainKey.iter_index, level_index h.start, UInt32.zero_add, ofNat_toNat_mod]
    exact Nat.mod_eq_of_lt (by omega)
  have hmac := C24_mac_verifies _ _ _ _ _ _ _ _ _ _ _ hm
  obtain ⟨body', hb', hlen⟩ := encryptBody_ok E.C ((level E.C k0 es p.turn).chain.iter E.C p.sent) pt
  rw [hb] at hb'; cases hb'
  have hm' := hm
  rw [h.version] at hm'
  obtain ⟨wb, hw1, hw2⟩ := C24_wire_roundtrip _ _ hstd.sm _ _ _ _ _ _ _ _ (by omega) hm'
  obtain ⟨_, mac, -, hgm, -, -, hsm⟩ := newSignalMessage_ok hm'
  have hon : Honest E.C E.S k0 es me peer p.turn p.sent pt sm := by
    refine ⟨by rw [hsm], by rw [hsm]; exact hidx, hsmall, by rw [hsm], ?_, ?_⟩
    · rw [h.loc, h.rem] at hmac
      have : sm.struct.version = s.version := by rw [hsm]; exact h.version.symm
      rw [this]; exact hmac
    · rw [hsm]
      exact decryptBody_encryptBody E.C hA _ _ _ hb
  refine ⟨cm, hout, hready, ?_, ?_⟩
  · refine ⟨h.version, h.loc, h.rem, h.base, h.root, ?_, h.chains, h.levels, h.nodup, h.short, h.start⟩
    simp only [SState.advance, h.sender, Option.map_some]
    rfl
  · rcases hcase with ⟨hp, rfl⟩ | ⟨pp, pm, hp, hnew, rfl⟩
    · left
      exact ⟨hp, wb, sm, by simp only [pack, hw1, Res.map_ok], hw2, hon⟩
    · right
      obtain ⟨id, hid⟩ := hpp pp hp
      rw [h.version, hid, h.loc] at hnew
      have hlen2 : E.S = protoSM → wb.length < 2 ^ 64 := by
        intro hS
        rw [hS] at hw1
        have := protoSM_ser_length sm.struct wb hw1 (by rw [hsm])
        rw [hsm] at this
        simp only [Option.getD_some, serPub_length, getMac_length hgm, hlen] at this
        simp only [macLength] at this
        omega
      obtain ⟨b, hb1, hb2⟩ := C25_wire_roundtrip_partial _ _ hstd _ _ _ _ _ _ _ _ hw1 hlen2 hnew
      have hcon := C25_construct_partial E.C _ hstd.sm _ _ _ _ _ _ _ _ (by omega) hm' s.localRegistrationId pp.signedPreKeyId (some (OptU32.new id)) pp.baseKey me
      obtain ⟨mb, hmb, hcon⟩ := hcon
      rw [hcon] at hnew
      cases hnew
      exact ⟨pp, hp, b, _, by simp only [pack, hb1, Res.map_ok], hb2, hon, rfl, rfl, hid.symm, rfl, rfl, rfl⟩

end Verif

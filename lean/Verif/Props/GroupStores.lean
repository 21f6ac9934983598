import Verif.Props.GroupSecrecy
/-
C73: sender-key stores that keep only bytes.  C74: sender-key stores that hand out the stored object.
C75: crashes during group Encrypt.  C76: concurrent group Encrypts.
-/
set_option linter.unusedSimpArgs false
namespace Verif

/-! ### C73: bytes -/

/-- `bs` holds the serialised form of the records of `st`. -/
def HoldsGroupBytes (st : GStore) (bs : GByteStore) : Prop := ∀ n, bs.recs n = (st.recs n).map fun l => (senderKeyJson l).enc

theorem HoldsGroupBytes.load {st : GStore} {bs : GByteStore} (h : HoldsGroupBytes st bs) (n : SenderKeyName) : bs.load n = st.load n := by
  rw [GByteStore.load, GStore.load, h n]
  cases st.recs n with
  | none => rfl
  | some l =>
    simp only [Option.map_some, GRec.ofBytes_enc]
    cases GRec.ofStruct l <;> rfl

theorem HoldsGroupBytes.save {st : GStore} {bs : GByteStore} (h : HoldsGroupBytes st bs) (n : SenderKeyName) (r : GRec) :
    HoldsGroupBytes (st.save n r) (bs.save n r) := by
  intro x
  simp only [GByteStore.save, GStore.save]
  split
  · rfl
  · exact h x

theorem HoldsGroupBytes.call {st : GStore} {bs : GByteStore} (h : HoldsGroupBytes st bs) (C : Crypto) (S : Ser SKStruct) (op : GOp) :
    (bs.call C S op).1 = (st.call C S op).1 ∧ HoldsGroupBytes (st.call C S op).2 (bs.call C S op).2 := by
  cases op with
  | encrypt n pt rand =>
    simp only [GByteStore.call, GStore.call, GStore.encrypt, h.load n]
    cases st.load n with
    | err e => exact ⟨rfl, h⟩
    | panic => exact ⟨rfl, h⟩
    | ok r =>
      simp only
      obtain ⟨res, r', b⟩ := groupEncrypt C S rand r pt
      cases r' <;> cases b
      · exact ⟨rfl, h⟩
      · exact ⟨rfl, h⟩
      · exact ⟨rfl, h⟩
      · exact ⟨rfl, h.save _ _⟩
  | decrypt n m =>
    simp only [GByteStore.call, GStore.call, GStore.decrypt, h.load n]
    cases st.load n with
    | err e => exact ⟨rfl, h⟩
    | panic => exact ⟨rfl, h⟩
    | ok r =>
      simp only
      obtain ⟨res, r', b⟩ := groupDecrypt C S r m
      cases r' <;> cases b
      · exact ⟨rfl, h⟩
      · exact ⟨rfl, h⟩
      · exact ⟨rfl, h⟩
      · exact ⟨rfl, h.save _ _⟩
  | process n m =>
    simp only [GByteStore.call, GStore.call, GStore.process, h.load n]
    cases st.load n with
    | err e => exact ⟨rfl, h⟩
    | panic => exact ⟨rfl, h⟩
    | ok r => exact ⟨rfl, h.save _ _⟩
  | create n d =>
    simp only [GByteStore.call, GStore.call, GStore.create, h.load n]
    cases st.load n with
    | err e => exact ⟨rfl, h⟩
    | panic => exact ⟨rfl, h⟩
    | ok r =>
      simp only
      obtain ⟨res, r'⟩ := groupCreate C d r
      cases r'
      · exact ⟨rfl, h⟩
      · exact ⟨rfl, h.save _ _⟩

/-- **C73.** Take an application that keeps sender key records only as the bytes `Serialize` returns, and one whose store keeps the record's contents.  Whatever group calls they
make, in whatever order, each depending on all earlier answers, they get the same answers (including errors and panics). -/
theorem C73_group_bytes_only (C : Crypto) (S : Ser SKStruct) (app : GApp) (k : Nat) (st : GStore) (bs : GByteStore) (h : HoldsGroupBytes st bs) :
    gAppRun (GByteStore.call C S) app k bs [] = gAppRun (GStore.call C S) app k st [] := by
  have key : ∀ (k : Nat) (st : GStore) (bs : GByteStore) (hist : List GAnswer), HoldsGroupBytes st bs →
      gAppRun (GByteStore.call C S) app k bs hist = gAppRun (GStore.call C S) app k st hist := by
    intro k
    induction k with
    | zero => intros; rfl
    | succ k ih =>
      intro st bs hist h
      simp only [gAppRun]
      cases app hist with
      | none => rfl
      | some c =>
        obtain ⟨e1, e2⟩ := h.call C S c
        simp only [e1]
        exact ih _ _ _ e2
  exact key k st bs [] h

/-! ### C74: live objects -/

theorem groupSkip_reloaded (C : Crypto) (it : UInt32) (fuel : Nat) (s : SKState) (ck : SChainKey) :
    groupSkip C it fuel s.reloaded ck = ((groupSkip C it fuel s ck).1, (groupSkip C it fuel s ck).2.reloaded) := by
  induction fuel generalizing s ck with
  | zero => rfl
  | succ fuel ih =>
    simp only [groupSkip]
    split
    · cases ck.msgKey C with
      | ok k =>
        simp only
        rw [show s.reloaded.addKey k = (s.addKey k).reloaded from rfl]
        exact ih _ _
      | err e => rfl
      | panic => rfl
    · rfl

theorem getSenderKey_reloaded (C : Crypto) (s : SKState) (it : UInt32) :
    getSenderKey C s.reloaded it = ((getSenderKey C s it).1, (getSenderKey C s it).2.reloaded) := by
  simp only [getSenderKey]
  rw [show s.reloaded.chain = s.chain from rfl, show s.reloaded.hasKey it = s.hasKey it from rfl]
  split
  · split
    · simp only [SKState.removeKey]
      rw [show s.reloaded.keys = s.keys from rfl]
      cases s.keys.findIdx? (fun k => k.iteration == it) <;> rfl
    · rfl
  · split
    · rfl
    · rw [groupSkip_reloaded]
      obtain ⟨res, s'⟩ := groupSkip C it (it - s.chain.iteration).toNat s s.chain
      cases res <;> rfl

theorem modifyFirst_map (p : SKState → Bool) (hp : ∀ s, p s.reloaded = p s) (s' : SKState) (l : List SKState) :
    modifyFirst p (fun _ => s'.reloaded) (l.map SKState.reloaded) = (modifyFirst p (fun _ => s') l).map SKState.reloaded := by
  induction l with
  | nil => rfl
  | cons x l ih =>
    simp only [List.map_cons, modifyFirst, hp]
    split
    · rfl
    · rw [ih, List.map_cons]

theorem find_reloaded (p : SKState → Bool) (hp : ∀ s, p s.reloaded = p s) (l : List SKState) :
    (l.map SKState.reloaded).find? p = (l.find? p).map SKState.reloaded := by
  induction l with
  | nil => rfl
  | cons x l ih =>
    simp only [List.map_cons, List.find?_cons, hp]
    split
    · rfl
    · exact ih

/-- Decryption does not look at private signing keys. -/
theorem groupDecrypt_reloaded (C : Crypto) (S : Ser SKStruct) (r : GRec) (m : SenderKeyMsg) :
    groupDecrypt C S (some (r.map SKState.reloaded)) m =
      ((groupDecrypt C S (some r) m).1, (groupDecrypt C S (some r) m).2.1.map (·.map SKState.reloaded), (groupDecrypt C S (some r) m).2.2) := by
  cases r with
  | nil => rfl
  | cons s0 rest =>
    have hp : ∀ s : SKState, (s.reloaded.keyId == m.keyId) = (s.keyId == m.keyId) := fun _ => rfl
    have h1 := find_reloaded (fun s => s.keyId == m.keyId) hp (s0 :: rest)
    have h2 := fun s' => modifyFirst_map (fun s => s.keyId == m.keyId) hp s' (s0 :: rest)
    rw [List.map_cons] at h1 h2 ⊢
    simp only [groupDecrypt, h1]
    cases (s0 :: rest).find? (fun s => s.keyId == m.keyId) with
    | none => rfl
    | some s =>
      simp only [Option.map_some]
      cases m.serialize S with
      | err e => rfl
      | panic => rfl
      | ok body =>
        simp only
        rw [show s.reloaded.signing.pub = s.signing.pub from rfl]
        split
        · rfl
        · rw [getSenderKey_reloaded]
          obtain ⟨res, s'⟩ := getSenderKey C s m.iteration
          simp only [h2]
          cases res with
          | err e => rfl
          | panic => rfl
          | ok o =>
            cases o with
            | none => rfl
            | some mk =>
              simp only
              cases decryptCbc C (some mk.iv) mk.cipherKey (m.ciphertext.getD []) <;> rfl

/-- Refusals by the counter leave the state alone. -/
theorem getSenderKey_err (C : Crypto) (s : SKState) (it : UInt32) {e : Err} {s' : SKState} (h : getSenderKey C s it = (.err e, s')) : s' = s := by
  have hskip : ∀ n (s : SKState) (ck : SChainKey), ∃ ck', (groupSkip C it n s ck).1 = .ok ck' := by
    intro n
    induction n with
    | zero => intro s ck; exact ⟨_, rfl⟩
    | succ n ih =>
      intro s ck
      simp only [groupSkip, msgKey_eq]
      split
      · exact ih _ _
      · exact ⟨_, rfl⟩
  simp only [getSenderKey] at h
  split at h
  · split at h
    · simp at h
    · simp only [Prod.mk.injEq] at h; exact h.2.symm
  · split at h
    · simp only [Prod.mk.injEq] at h; exact h.2.symm
    · obtain ⟨ck', hk⟩ := hskip (it - s.chain.iteration).toNat s s.chain
      generalize groupSkip C it (it - s.chain.iteration).toNat s s.chain = x at *
      obtain ⟨res, s1⟩ := x
      simp only at hk
      subst hk
      simp [msgKey_eq] at h

theorem modifyFirst_same {p : SKState → Bool} {l : List SKState} {s : SKState} (h : l.find? p = some s) : modifyFirst p (fun _ => s) l = l := by
  induction l with
  | nil => rfl
  | cons x l ih =>
    simp only [List.find?_cons] at h
    simp only [modifyFirst]
    split at h
    · next hx => cases h; simp [hx]
    · next hx => rw [if_neg (by simp [hx]), ih h]

/-- The answers after which a live object and a stored one may differ: a crash of the call, or a message that carries the sender's valid signature and yet does not decrypt. -/
def GAnswer.fine : GAnswer → Prop
  | .encrypted r => r ≠ .panic
  | .decrypted r => r ≠ .panic ∧ r ≠ .err .badAesKey ∧ r ≠ .err .shortCiphertext ∧ r ≠ .err .badPadding
  | .processed _ => True
  | .created _ => True

theorem decryptCbc_err (C : Crypto) {iv : Option Bytes} {key ct : Bytes} {e : Err} (h : decryptCbc C iv key ct = .err e) :
    e = .badAesKey ∨ e = .shortCiphertext ∨ e = .badPadding := by
  simp only [decryptCbc] at h
  split at h
  · cases h; exact .inl rfl
  · split at h
    · cases h; exact .inr (.inl rfl)
    · right; right
      revert h
      have hc : ∀ (f : Block → List Block → List Block) v c e, cbcCrypt f v c ≠ .err e := by
        intro f v c e
        unfold cbcCrypt
        repeat' split
        all_goals simp
      generalize hg : cbcCrypt _ _ _ = o
      intro h
      cases o with
      | ok x =>
        simp only [Res.bind_ok, unpad] at h
        repeat' split at h
        all_goals cases h
        all_goals rfl
      | err e' => exact absurd hg (hc _ _ _ _)
      | panic => simp [Res.bind] at h

/-- A decryption that is refused with a fine answer leaves the object as it was. -/
theorem groupDecrypt_fine (C : Crypto) (S : Ser SKStruct) (r : Option GRec) (m : SenderKeyMsg) (h : (GAnswer.decrypted (groupDecrypt C S r m).1).fine) :
    (groupDecrypt C S r m).2.2 = true ∨ (groupDecrypt C S r m).2.1 = r := by
  cases r with
  | none => exact .inr rfl
  | some r =>
    cases r with
    | nil => exact .inr rfl
    | cons s0 rest =>
      revert h
      simp only [groupDecrypt]
      cases hf : (s0 :: rest).find? (fun s => s.keyId == m.keyId) with
      | none => intro _; exact .inr rfl
      | some s =>
        simp only
        cases m.serialize S with
        | err e => intro _; exact .inr rfl
        | panic => intro _; exact .inr rfl
        | ok body =>
          simp only
          split
          · intro _; exact .inr rfl
          · cases hg : getSenderKey C s m.iteration with
            | mk res s' =>
              simp only
              cases res with
              | err e =>
                intro _
                rw [getSenderKey_err C s _ hg]
                exact .inr (congrArg some (modifyFirst_same hf))
              | panic => intro h; exact absurd rfl h.1
              | ok o =>
                cases o with
                | none => intro h; exact absurd rfl h.1
                | some mk =>
                  simp only
                  cases hd : decryptCbc C (some mk.iv) mk.cipherKey (m.ciphertext.getD []) with
                  | ok pt => intro _; exact .inl rfl
                  | panic => intro h; exact absurd rfl h.1
                  | err e =>
                    intro h
                    obtain ⟨-, h1, h2, h3⟩ := h
                    rcases decryptCbc_err C hd with rfl | rfl | rfl
                    · exact absurd rfl h1
                    · exact absurd rfl h2
                    · exact absurd rfl h3

/-- What the serialising store loads is the live record, up to private signing keys that are not there (C23). -/
def GLiveRel (lv : GLiveStore) (st : GStore) : Prop := ∀ n, st.load n = .ok ((lv.recs n).map (·.map SKState.reloaded))

theorem reloaded_reloaded (r : GRec) : (r.map SKState.reloaded).map SKState.reloaded = r.map SKState.reloaded := by
  rw [List.map_map]; rfl

theorem GLiveRel.save {lv : GLiveStore} {st : GStore} (h : GLiveRel lv st) (n : SenderKeyName) (r r' : GRec) (hr : r'.map SKState.reloaded = r.map SKState.reloaded) :
    GLiveRel (lv.set n (some r)) (st.save n r') := by
  intro x
  by_cases hx : x = n
  · subst hx
    rw [GStore.load_save]
    simp [GLiveStore.set, hr]
  · have : (st.save n r').load x = st.load x := by simp [GStore.load, GStore.save, hx]
    rw [this, h x]
    simp [GLiveStore.set, hx]

theorem GLiveStore.set_self (lv : GLiveStore) (n : SenderKeyName) : lv.set n (lv.recs n) = lv := by
  obtain ⟨f⟩ := lv
  simp only [GLiveStore.set, GLiveStore.mk.injEq]
  funext x
  split
  · next h => rw [h]
  · rfl

theorem GLiveRel.call {lv : GLiveStore} {st : GStore} (h : GLiveRel lv st) (C : Crypto) (S : Ser SKStruct) (op : GOp) (hf : (lv.call C S op).1.fine) :
    (st.call C S op).1 = (lv.call C S op).1 ∧ GLiveRel (lv.call C S op).2 (st.call C S op).2 := by
  cases op with
  | encrypt n pt rand =>
    simp only [GLiveStore.call, GStore.call, GStore.encrypt, h n] at hf ⊢
    have hs := lv.set_self n
    cases hr : lv.recs n with
    | none =>
      rw [hr] at hs
      simp only [Option.map_none, groupEncrypt, hs]
      exact ⟨by trivial, h⟩
    | some r =>
      rw [hr] at hs hf
      cases r with
      | nil =>
        simp only [Option.map_some, List.map_nil, groupEncrypt, hs]
        exact ⟨by trivial, h⟩
      | cons s rest =>
        cases hk : s.signing.priv with
        | none =>
          exfalso
          have hb : ∃ body, encryptCbc C none (some (groupKey C s.chain).iv) (groupKey C s.chain).cipherKey pt = .ok body := by
            rw [encryptCbc_some C none _ _ _ ((aesKeyOk_iff _).2 (.inr (.inr (groupKey_cipherKey C s.chain))))]
            exact ⟨_, cbcCrypt_ok _ _ _ _ (groupKey_iv C s.chain) (pad_length pt)⟩
          obtain ⟨body, hb⟩ := hb
          apply hf
          simp [groupEncrypt, msgKey_eq, hb, newSenderKeyMessage, hk]
        | some k =>
          simp only [Option.map_some, List.map_cons, groupEncrypt, reloaded_self hk]
          generalize (s.chain.msgKey C).bind _ = o
          cases o with
          | ok m =>
            refine ⟨rfl, h.save n _ _ ?_⟩
            simp only [List.map_cons, reloaded_reloaded]
          | err e => simp only [hs]; exact ⟨by trivial, h⟩
          | panic => simp only [hs]; exact ⟨by trivial, h⟩
  | decrypt n m =>
    simp only [GLiveStore.call, GStore.call, GStore.decrypt, h n] at hf ⊢
    have hs := lv.set_self n
    cases hr : lv.recs n with
    | none =>
      rw [hr] at hs
      simp only [Option.map_none, groupDecrypt, hs]
      exact ⟨by trivial, h⟩
    | some r =>
      rw [hr] at hs hf
      have hfine := groupDecrypt_fine C S (some r) m hf
      rw [Option.map_some, groupDecrypt_reloaded]
      have hsome : ∃ r', (groupDecrypt C S (some r) m).2.1 = some r' := by
        rcases groupDecrypt_cases C S r m with ⟨res, r', he, -⟩ | ⟨s, body, mk, s', pt, -, -, -, -, -, he⟩
        · rcases hfine with h1 | h1
          · rw [he] at h1; simp at h1
          · exact ⟨r, h1⟩
        · exact ⟨_, by rw [he]⟩
      generalize groupDecrypt C S (some r) m = x at *
      obtain ⟨res, o, b⟩ := x
      obtain ⟨r', hr'⟩ := hsome
      simp only at hr' hfine ⊢
      subst hr'
      cases b with
      | true => exact ⟨by trivial, h.save n _ _ (reloaded_reloaded r')⟩
      | false =>
        simp only [Bool.false_eq_true, false_or] at hfine
        rw [hfine, hs]
        exact ⟨by trivial, h⟩
  | process n m =>
    simp only [GLiveStore.call, GStore.call, GStore.process, h n]
    refine ⟨by trivial, h.save n _ _ ?_⟩
    cases lv.recs n with
    | none => rfl
    | some r =>
      simp only [Option.map_some, groupProcess, Option.getD_some, GRec.addState, List.length_append, List.length_map]
      split
      · simp only [List.map_drop, List.map_append, reloaded_reloaded]
      · simp only [List.map_append, reloaded_reloaded]
  | create n d =>
    simp only [GLiveStore.call, GStore.call, GStore.create, h n]
    have hc : groupCreate C d ((lv.recs n).map (·.map SKState.reloaded)) = groupCreate C d (lv.recs n) := by
      cases lv.recs n with
      | none => rfl
      | some r => cases r <;> rfl
    rw [hc]
    obtain ⟨res, o⟩ := groupCreate C d (lv.recs n)
    cases o with
    | none => exact ⟨by trivial, h⟩
    | some r' => exact ⟨rfl, h.save n _ _ rfl⟩

/-- **C74.** A store that hands out the stored object itself (like the in-memory store of the repository's tests) gives the same answers as one that serialises, whatever the
application does, up to the first answer that is not `fine`.
Missing: after such an answer the claim is false (`C74_live_false`). -/
theorem C74_live_partial (C : Crypto) (S : Ser SKStruct) (app : GApp) (k : Nat) (lv : GLiveStore) (st : GStore) (h : GLiveRel lv st)
    (hfine : ∀ a ∈ gAppRun (GLiveStore.call C S) app k lv [], a.fine) :
    gAppRun (GStore.call C S) app k st [] = gAppRun (GLiveStore.call C S) app k lv [] := by
  have grow : ∀ (k : Nat) (lv : GLiveStore) (hist : List GAnswer), ∃ t, gAppRun (GLiveStore.call C S) app k lv hist = hist ++ t := by
    intro k
    induction k with
    | zero => intro lv hist; exact ⟨[], by simp [gAppRun]⟩
    | succ k ih =>
      intro lv hist
      simp only [gAppRun]
      cases app hist with
      | none => exact ⟨[], by simp⟩
      | some c =>
        obtain ⟨t, ht⟩ := ih (lv.call C S c).2 (hist ++ [(lv.call C S c).1])
        exact ⟨_, by simp only [ht, List.append_assoc]; rfl⟩
  have key : ∀ (k : Nat) (lv : GLiveStore) (st : GStore) (hist : List GAnswer), GLiveRel lv st →
      (∀ a ∈ gAppRun (GLiveStore.call C S) app k lv hist, a.fine) →
      gAppRun (GStore.call C S) app k st hist = gAppRun (GLiveStore.call C S) app k lv hist := by
    intro k
    induction k with
    | zero => intros; rfl
    | succ k ih =>
      intro lv st hist h hfine
      simp only [gAppRun] at hfine ⊢
      cases ha : app hist with
      | none => rfl
      | some c =>
        simp only [ha] at hfine
        have hc : (lv.call C S c).1.fine := by
          obtain ⟨t, ht⟩ := grow k (lv.call C S c).2 (hist ++ [(lv.call C S c).1])
          apply hfine
          rw [ht]
          simp
        obtain ⟨e1, e2⟩ := h.call C S c hc
        simp only [e1]
        exact ih _ _ _ e2 hfine
  exact key k lv st [] h hfine

section
open Toy

/-- A message signed by the sender whose ciphertext is no ciphertext. -/
def gBad : SenderKeyMsg :=
  let m : SenderKeyMsg := ⟨gMsg0.version, gMsg0.keyId, gMsg0.iteration, some [1], none⟩
  match m.serialize protoSK with
  | .ok body => { m with signature := some (C.sign (clamp (key 3)) body gRand).bytes }
  | _ => m

/-- The receiver's in-memory store. -/
def gLive : GLiveStore := (GLiveStore.call C protoSK ⟨fun _ => none⟩ (.process gName gSkdm)).2

theorem gLive_rel : GLiveRel gLive gReceiver := by
  have h0 : GLiveRel ⟨fun _ => none⟩ GStore.empty := fun n => rfl
  exact (h0.call C protoSK (.process gName gSkdm) trivial).2

set_option maxRecDepth 100000 in
/-- **C74 is false** after an answer that is not fine: the sender's client signs a message that does not decrypt (iteration 0), and then the real message 0.  The in-memory store
answers that it has seen it; a serialising store decrypts it. -/
theorem C74_live_false : ∃ (lv : GLiveStore) (st : GStore) (app : GApp), GLiveRel lv st ∧
    gAppRun (GStore.call C protoSK) app 2 st [] = [.decrypted (.err .shortCiphertext), .decrypted (.ok [1, 2, 3])] ∧
    gAppRun (GLiveStore.call C protoSK) app 2 lv [] = [.decrypted (.err .shortCiphertext), .decrypted (.err .oldCounter)] :=
  ⟨gLive, gReceiver, fun h => if h = [] then some (.decrypt gName gBad) else some (.decrypt gName gMsg0), gLive_rel, by decide +kernel, by decide +kernel⟩

/-- An application that reacts to what it is told: it decrypts until something is refused, then asks for a new sender key of its own and uses it. -/
def gApp : GApp := fun h =>
  if h.length < 2 then some (.decrypt gName gMsg0)
  else if h.getLast? = some (.decrypted (.err .oldCounter)) then some (.create ⟨"group", ⟨"bob", 1⟩⟩ (gDraws 9 5))
  else some (.encrypt ⟨"group", ⟨"bob", 1⟩⟩ [4, 4] gRand)

set_option maxRecDepth 100000 in
/-- Non-vacuity of C73: the receiver's record as bytes. -/
example : HoldsGroupBytes gReceiver ⟨fun n => (gReceiver.recs n).map fun l => (senderKeyJson l).enc⟩ ∧
    (gAppRun (GStore.call C protoSK) gApp 4 gReceiver []).take 2 = [.decrypted (.ok [1, 2, 3]), .decrypted (.err .oldCounter)] ∧
    (gAppRun (GStore.call C protoSK) gApp 4 gReceiver []).length = 4 :=
  ⟨fun _ => rfl, by decide +kernel, by decide +kernel⟩

instance : DecidablePred GAnswer.fine := fun a => by
  cases a <;> simp only [GAnswer.fine] <;> infer_instance

set_option maxRecDepth 100000 in
/-- Non-vacuity of C74: all answers of this application are fine. -/
example : GLiveRel gLive gReceiver ∧ (∀ a ∈ gAppRun (GLiveStore.call C protoSK) gApp 4 gLive [], a.fine) ∧
    (gAppRun (GLiveStore.call C protoSK) gApp 4 gLive []).length = 4 :=
  ⟨gLive_rel, by decide +kernel, by decide +kernel⟩
end

/-! ### C75: crashes -/

/-- A history of Encrypt calls for one group; `none`: the call returns its message; `some stored`: the process dies during the call, before or after the record was stored, and the
next call starts from the store.  For each call what it computed and whether the caller got it. -/
def groupCrashRun (C : Crypto) (S : Ser SKStruct) (n : SenderKeyName) : GStore → List (Bytes × Arr 64 × Option Bool) → List (Res SenderKeyMsg × Bool) × GStore
  | st, [] => ([], st)
  | st, (pt, rand, none) :: xs =>
    let x := st.encrypt C S rand n pt
    let rest := groupCrashRun C S n x.2 xs
    ((x.1, true) :: rest.1, rest.2)
  | st, (pt, rand, some stored) :: xs =>
    let x := st.encryptCrash C S rand n pt stored
    let rest := groupCrashRun C S n x.2 xs
    ((x.1, false) :: rest.1, rest.2)

theorem groupCrashRun_counters (C : Crypto) (S : Ser SKStruct) (hSer : StdSK S) (n : SenderKeyName) (hist : List (Bytes × Arr 64 × Option Bool)) (k : Key32)
    (base : SChainKey) (c : Nat) (st : GStore) (s : SKState) (rest : GRec) (hl : st.load n = .ok (some (s :: rest))) (hk : s.signing.priv = some k) (hc : s.chain = base.iter C c) :
    ∃ ns : List Nat, ns.length = hist.length ∧ (groupCrashRun C S n st hist).1.length = hist.length ∧
      (∀ (i p : Nat), ns[i]? = some p → c ≤ p ∧ p ≤ c + i ∧ ∃ (m : SenderKeyMsg) (b : Bool), (groupCrashRun C S n st hist).1[i]? = some (.ok m, b) ∧ m.keyId = s.keyId ∧
        m.iteration = base.iteration + UInt32.ofNat p) ∧
      (∀ (i j p q : Nat) (r : Res SenderKeyMsg), i < j → ns[i]? = some p → ns[j]? = some q → (groupCrashRun C S n st hist).1[i]? = some (r, true) → p < q) := by
  induction hist generalizing c st s with
  | nil => exact ⟨[], rfl, rfl, by simp, by simp⟩
  | cons x hist ih =>
    obtain ⟨pt, rand, fate⟩ := x
    obtain ⟨m, body, content, h1, h2, h3, -, -, -, -, -, -, -, h4⟩ := GStore.encrypt_ok C S hSer st n s rest k hl hk pt rand
    have hit : ∀ (b : SChainKey) c, (b.iter C c).iteration = b.iteration + UInt32.ofNat c := by
      intro b c
      induction c generalizing b with
      | zero => simp [SChainKey.iter]
      | succ c ih =>
        rw [SChainKey.iter_succ, ih, snext_iteration]
        apply UInt32.toNat_inj.1
        simp only [UInt32.toNat_add, UInt32.toNat_ofNat', UInt32.toNat_one]
        omega
    -- the rest of the history starts at `c'`
    have main : ∀ (st' : GStore) (s' : SKState) (c' : Nat) (b : Bool), st'.load n = .ok (some (s' :: rest)) → s'.signing.priv = some k → s'.chain = base.iter C c' →
        s'.keyId = s.keyId → c ≤ c' → c' ≤ c + 1 → (b = true → c < c') →
        groupCrashRun C S n st ((pt, rand, fate) :: hist) = ((.ok m, b) :: (groupCrashRun C S n st' hist).1, (groupCrashRun C S n st' hist).2) →
        ∃ ns : List Nat, ns.length = (hist.length + 1) ∧ (groupCrashRun C S n st ((pt, rand, fate) :: hist)).1.length = hist.length + 1 ∧
          (∀ (i p : Nat), ns[i]? = some p → c ≤ p ∧ p ≤ c + i ∧ ∃ (m : SenderKeyMsg) (b : Bool), (groupCrashRun C S n st ((pt, rand, fate) :: hist)).1[i]? = some (.ok m, b) ∧ m.keyId = s.keyId ∧
            m.iteration = base.iteration + UInt32.ofNat p) ∧
          (∀ (i j p q : Nat) (r : Res SenderKeyMsg), i < j → ns[i]? = some p → ns[j]? = some q → (groupCrashRun C S n st ((pt, rand, fate) :: hist)).1[i]? = some (r, true) → p < q) := by
      intro st' s' c' b hl' hk' hc' hid hle hle' hb he
      obtain ⟨ns, n1, n2, n3, n4⟩ := ih c' st' s' hl' hk' hc'
      refine ⟨c :: ns, by simp [n1], by rw [he]; simp [n2], ?_, ?_⟩
      · intro i p hp
        cases i with
        | zero =>
          simp only [List.getElem?_cons_zero, Option.some.injEq] at hp
          subst hp
          exact ⟨Nat.le_refl _, Nat.le_refl _, m, b, by rw [he]; rfl, h2, by rw [h3, hc]; exact hit base c⟩
        | succ i =>
          simp only [List.getElem?_cons_succ] at hp
          obtain ⟨a1, a2, m', b', a3, a4, a5⟩ := n3 i p hp
          exact ⟨by omega, by omega, m', b', by rw [he]; exact a3, by rw [a4, hid], a5⟩
      · intro i j p q r hij hp hq hr
        cases j with
        | zero => omega
        | succ j =>
          simp only [List.getElem?_cons_succ] at hq
          cases i with
          | zero =>
            simp only [List.getElem?_cons_zero, Option.some.injEq] at hp
            rw [he] at hr
            simp only [List.getElem?_cons_zero, Option.some.injEq, Prod.mk.injEq] at hr
            have := hb hr.2
            have := (n3 j q hq).1
            omega
          | succ i =>
            simp only [List.getElem?_cons_succ] at hp
            rw [he] at hr
            simp only [List.getElem?_cons_succ] at hr
            exact n4 i j p q r (by omega) hp hq hr
    have hnext : (base.iter C c).next C = base.iter C (c + 1) := rfl
    match fate with
    | none =>
      exact main (st.encrypt C S rand n pt).2 { s with chain := s.chain.next C } (c + 1) true h4 hk (by rw [← hnext, ← hc]) rfl (by omega) (by omega) (by omega)
        (by simp [groupCrashRun, h1])
    | some true =>
      exact main (st.encrypt C S rand n pt).2 { s with chain := s.chain.next C } (c + 1) false h4 hk (by rw [← hnext, ← hc]) rfl (by omega) (by omega) (by omega)
        (by simp [groupCrashRun, GStore.encryptCrash, h1])
    | some false =>
      exact main st s c false hl hk hc rfl (by omega) (by omega) (by simp) (by simp [groupCrashRun, GStore.encryptCrash, h1])

/-- **C75.** In every history of group Encrypt calls, where the process may die during any of them before or after the record is stored and the next call starts from what was
stored: every call gets as far as a message, and a message that was returned to the caller never shares its iteration (hence its key) with a message built later, returned or not,
for fewer than 2^32 calls. -/
theorem C75_group_crash_no_reuse (C : Crypto) (S : Ser SKStruct) (hSer : StdSK S) (n : SenderKeyName) (st : GStore) (s : SKState) (rest : GRec) (k : Key32)
    (hl : st.load n = .ok (some (s :: rest))) (hk : s.signing.priv = some k) (hist : List (Bytes × Arr 64 × Option Bool)) (hn : hist.length < 2 ^ 32) :
    (∀ i < hist.length, ∃ (m : SenderKeyMsg) (b : Bool), (groupCrashRun C S n st hist).1[i]? = some (.ok m, b)) ∧
    ∀ (i j : Nat) (m m' : SenderKeyMsg) (b : Bool), i < j → (groupCrashRun C S n st hist).1[i]? = some (.ok m, true) → (groupCrashRun C S n st hist).1[j]? = some (.ok m', b) →
      m.iteration ≠ m'.iteration := by
  obtain ⟨ns, n1, n2, n3, n4⟩ := groupCrashRun_counters C S hSer n hist k s.chain 0 st s rest hl hk rfl
  have get : ∀ i, i < hist.length → ∃ p, ns[i]? = some p := fun i hi => ⟨ns[i]'(by omega), List.getElem?_eq_getElem _⟩
  refine ⟨fun i hi => ?_, ?_⟩
  · obtain ⟨p, hp⟩ := get i hi
    obtain ⟨-, -, m, b, h, -⟩ := n3 i p hp
    exact ⟨m, b, h⟩
  · intro i j m m' b hij hi hj he
    have hjl : j < hist.length := by rw [← n2]; exact (List.getElem?_eq_some_iff.1 hj).1
    obtain ⟨p, hp⟩ := get i (by omega)
    obtain ⟨q, hq⟩ := get j hjl
    have hpq := n4 i j p q _ hij hp hq hi
    obtain ⟨-, hp1, m1, b1, e1, -, i1⟩ := n3 i p hp
    obtain ⟨-, hq1, m2, b2, e2, -, i2⟩ := n3 j q hq
    rw [hi] at e1; cases e1
    rw [hj] at e2; cases e2
    rw [i1, i2] at he
    have := congrArg UInt32.toNat he
    simp only [UInt32.toNat_add, UInt32.toNat_ofNat'] at this
    have := s.chain.iteration.toNat_lt
    omega

section
open Toy
set_option maxRecDepth 100000 in
/-- Non-vacuity of C75: the sender's record owns its key; a history with all three fates. -/
example : (∃ s rest k, gSender.load gName = .ok (some (s :: rest)) ∧ s.signing.priv = some k) ∧
    (groupCrashRun C protoSK gName gSender [([1], gRand, none), ([2], gRand, some false), ([3], gRand, some true), ([4], gRand, none)]).1.map
      (fun x => (x.1.map (·.iteration), x.2)) = [(.ok 0, true), (.ok 1, false), (.ok 1, false), (.ok 2, true)] :=
  ⟨⟨_, _, _, rfl, rfl⟩, by decide +kernel⟩
end

/-! #### The receiver -/

/-- Receiving raw bytes as a group message with a process that dies during `Decrypt`, before (`stored = false`) or after the record was stored. -/
def recvBytesCrash (C : Crypto) (S : Ser SKStruct) (st : GStore) (n : SenderKeyName) (b : Bytes) (stored : Bool) : GStore :=
  match newSenderKeyMessageFromBytes S b with
  | .ok m => st.decryptCrash C S n m stored
  | _ => st

/-- A receiver's history: each delivery returns to the caller (`none`), or the process dies during it (`some stored`) and continues from its store.  What the caller got. -/
def groupReceiveCrash (C : Crypto) (S : Ser SKStruct) (n : SenderKeyName) (sent : List (Res SenderKeyMsg)) : GStore → List (GEvent × Option Bool) → List (Option (Res Bytes)) × GStore
  | st, [] => ([], st)
  | st, (e, none) :: es =>
    let x := recvBytes C S st n (e.bytes S sent)
    let rest := groupReceiveCrash C S n sent x.2 es
    (some x.1 :: rest.1, rest.2)
  | st, (e, some stored) :: es =>
    let rest := groupReceiveCrash C S n sent (recvBytesCrash C S st n (e.bytes S sent) stored) es
    (none :: rest.1, rest.2)

/-- The specification: as `GroupOutcome`, and a delivery during which the process dies leaves the window alone when nothing was stored, and uses the message up when the record was
stored. -/
def GroupCrashOutcome (plaintexts : List Bytes) (base : Nat) : Window → List (GEvent × Option Bool) → List (Option (Res Bytes)) → Prop
  | _, [], [] => True
  | w, (.other _, _) :: es, _ :: rs => GroupCrashOutcome plaintexts base w es rs
  | w, (.deliver _, some false) :: es, r :: rs => r = none ∧ GroupCrashOutcome plaintexts base w es rs
  | w, (.deliver j, some true) :: es, r :: rs =>
    match Window.accept groupLimits w (base + j) with
    | none => r = none ∧ GroupCrashOutcome plaintexts base w es rs
    | some (_, w') => r = none ∧ GroupCrashOutcome plaintexts base w' es rs
  | w, (.deliver j, none) :: es, r :: rs =>
    match Window.accept groupLimits w (base + j) with
    | none => (r = some (.err .oldCounter) ∨ r = some (.err .tooFarFuture)) ∧ GroupCrashOutcome plaintexts base w es rs
    | some (_, w') => (∃ pt, plaintexts[j]? = some pt ∧ r = some (.ok pt)) ∧ GroupCrashOutcome plaintexts base w' es rs
  | _, _, _ => False

/-- The deliveries that had an effect on the store. -/
def effective : List (GEvent × Option Bool) → List GEvent
  | [] => []
  | (_, some false) :: es => effective es
  | (e, _) :: es => e :: effective es

theorem effective_mem {evs : List (GEvent × Option Bool)} {e : GEvent} (h : e ∈ effective evs) : ∃ f, (e, f) ∈ evs := by
  induction evs with
  | nil => simp [effective] at h
  | cons x evs ih =>
    obtain ⟨e', f⟩ := x
    have keep : e = e' ∨ e ∈ effective evs → ∃ f', (e, f') ∈ (e', f) :: evs := by
      intro h
      rcases h with rfl | h
      · exact ⟨f, List.mem_cons_self⟩
      · obtain ⟨f', h'⟩ := ih h; exact ⟨f', List.mem_cons_of_mem _ h'⟩
    match f with
    | some false => exact keep (.inr h)
    | some true => exact keep (by simpa [effective] using h)
    | none => exact keep (by simpa [effective] using h)

theorem recvBytesCrash_stored (C : Crypto) (S : Ser SKStruct) (st : GStore) (n : SenderKeyName) (b : Bytes) : recvBytesCrash C S st n b true = (recvBytes C S st n b).2 := by
  simp only [recvBytesCrash, recvBytes]
  cases newSenderKeyMessageFromBytes S b <;> rfl

theorem recvBytesCrash_unstored (C : Crypto) (S : Ser SKStruct) (st : GStore) (n : SenderKeyName) (b : Bytes) : recvBytesCrash C S st n b false = st := by
  simp only [recvBytesCrash]
  cases newSenderKeyMessageFromBytes S b <;> rfl

theorem crash_outcome (C : Crypto) (S : Ser SKStruct) (n : SenderKeyName) (sent : List (Res SenderKeyMsg)) (pts : List Bytes) (base : Nat) (evs : List (GEvent × Option Bool)) (st : GStore)
    (w : Window) (h : GroupOutcome pts base w (effective evs) (groupReceive C S n sent st (effective evs)).1) :
    GroupCrashOutcome pts base w evs (groupReceiveCrash C S n sent st evs).1 := by
  induction evs generalizing st w with
  | nil => trivial
  | cons x evs ih =>
    obtain ⟨e, f⟩ := x
    match f with
    | some false =>
      simp only [effective] at h
      simp only [groupReceiveCrash, recvBytesCrash_unstored]
      cases e with
      | other b => exact ih _ _ h
      | deliver j => exact ⟨rfl, ih _ _ h⟩
    | some true =>
      simp only [effective, groupReceive] at h
      simp only [groupReceiveCrash, recvBytesCrash_stored]
      cases e with
      | other b => exact ih _ _ h
      | deliver j =>
        simp only [GroupOutcome] at h
        simp only [GroupCrashOutcome]
        cases ha : Window.accept groupLimits w (base + j) with
        | none => rw [ha] at h; exact ⟨by trivial, ih _ _ h.2⟩
        | some pw => rw [ha] at h; exact ⟨by trivial, ih _ _ h.2⟩
    | none =>
      simp only [effective, groupReceive] at h
      simp only [groupReceiveCrash]
      cases e with
      | other b => exact ih _ _ h
      | deliver j =>
        simp only [GroupOutcome] at h
        simp only [GroupCrashOutcome]
        cases ha : Window.accept groupLimits w (base + j) with
        | none => rw [ha] at h; exact ⟨h.1.imp (congrArg some) (congrArg some), ih _ _ h.2⟩
        | some pw =>
          rw [ha] at h
          obtain ⟨⟨pt, h1, h2⟩, h3⟩ := h
          exact ⟨⟨pt, h1, congrArg some h2⟩, ih _ _ h3⟩

/-- **C75 (receiver).** In the situation of `C29_group_delivery`, and with the receiver's process dying during any of the deliveries, before or after the record is stored, and going on
from its store: a delivery that returns yields the plaintext if the window accepts it and an error otherwise, where deliveries cut short before storing count as never having happened
(the message can be delivered again, and nothing else is affected) and those cut short after storing as delivered. -/
theorem C75_group_receiver_crash (C : Crypto) (S : Ser SKStruct) (hSer : StdSK S) (T : Ser SKDStruct) (hT : StdSKD T) (hA : C.AesLaw) (hS : C.SigLaw) (d : GroupDraws) (stA stA1 : GStore)
    (nA : SenderKeyName) (hown : OwnsName C stA nA) (skdm : SKDMsg) (hcr : stA.create C d nA = (.ok skdm, stA1))
    (hck : (skdm.chainKey.getD []).length < 2 ^ 64)
    (sends : List (Bytes × Arr 64)) (hlen : ∀ x ∈ sends, x.1.length < 2 ^ 63)
    (hwrap : skdm.iteration.toNat + sends.length < 2 ^ 32) (stB : GStore) (nB : SenderKeyName)
    (hfresh : stB.load nB = .ok none ∨ ∃ r, stB.load nB = .ok (some r) ∧ ∀ s ∈ r, s.keyId ≠ skdm.id)
    (evs : List (GEvent × Option Bool))
    (hevs : ∀ e ∈ evs, match e.1 with
      | .deliver j => j < sends.length
      | .other b => NotSignedBy C S skdm.id skdm.signatureKey b) :
    ∃ wire parsed, skdm.serialize T = .ok wire ∧ newSKDMFromBytes T wire = .ok parsed ∧
      GroupCrashOutcome (sends.map (·.1)) skdm.iteration.toNat ⟨skdm.iteration.toNat, []⟩ evs
        (groupReceiveCrash C S nB (groupSend C S nA stA1 sends).1 (stB.process nB parsed).2 evs).1 := by
  obtain ⟨wire, parsed, h1, h2, h3⟩ := C29_group_delivery C S hSer T hT hA hS d stA stA1 nA hown skdm hcr hck sends hlen hwrap stB nB hfresh (effective evs)
    (fun e he => by obtain ⟨f, hf⟩ := effective_mem he; exact hevs _ hf)
  exact ⟨wire, parsed, h1, h2, crash_outcome C S nB _ _ _ _ _ _ h3⟩

/-- A crash during Decrypt does not touch the records of other names. -/
theorem C75_decrypt_crash_frame (C : Crypto) (S : Ser SKStruct) (st : GStore) (n n' : SenderKeyName) (hn : n' ≠ n) (m : SenderKeyMsg) (stored : Bool) :
    (st.decryptCrash C S n m stored).load n' = st.load n' := by
  cases stored with
  | false => rfl
  | true =>
    simp only [GStore.decryptCrash, if_true, GStore.decrypt]
    have key : ∀ r', (st.save n r').load n' = st.load n' := fun r' => by simp [GStore.load, GStore.save, hn]
    cases st.load n with
    | err e => rfl
    | panic => rfl
    | ok r =>
      simp only
      obtain ⟨res, r', b⟩ := groupDecrypt C S r m
      cases r' <;> cases b <;> first | rfl | exact key _

section
open Toy
set_option maxRecDepth 100000 in
/-- Non-vacuity of C75 (receiver): a delivery dies before storing and succeeds when repeated; one dies after storing and the message is lost. -/
example : (groupReceiveCrash C protoSK gName (groupSend C protoSK gName gSender gSends).1 gReceiver
      [(.deliver 1, some false), (.deliver 1, none), (.deliver 0, some true), (.deliver 0, none), (.deliver 2, none)]).1 =
    [none, some (.ok []), none, some (.err .oldCounter), some (.ok [9])] := by decide +kernel
end

/-! ### C76: concurrency -/

/-- **C76 is false of the code.** For every sender key record that can send and any two texts there is an interleaving of two Encrypt calls in which both return a message with the
same iteration, encrypted with the same key and IV. -/
theorem C76_concurrent_false (C : Crypto) (S : Ser SKStruct) (hSer : StdSK S) (n : SenderKeyName) (st : GStore) (s : SKState) (rest : GRec) (k : Key32)
    (hl : st.load n = .ok (some (s :: rest))) (hk : s.signing.priv = some k) (x1 x2 : Bytes × Arr 64) :
    ∃ (sched : List Nat) (m1 m2 : SenderKeyMsg) (body1 body2 : Bytes),
      ((GEncSys.init st (fun i => if i = 0 then [x1] else if i = 1 then [x2] else [])).run C S n false sched).out = [(0, m1), (1, m2)] ∧
      m1.keyId = m2.keyId ∧ m1.iteration = m2.iteration ∧ m1.ciphertext = some body1 ∧ m2.ciphertext = some body2 ∧
      encryptCbc C none (some (groupKey C s.chain).iv) (groupKey C s.chain).cipherKey x1.1 = .ok body1 ∧
      encryptCbc C none (some (groupKey C s.chain).iv) (groupKey C s.chain).cipherKey x2.1 = .ok body2 := by
  have step : ∀ x : Bytes × Arr 64, ∃ m body, groupEncrypt C S x.2 (some (s :: rest)) x.1 = (.ok m, some ({ s with chain := s.chain.next C } :: rest), true) ∧
      m.keyId = s.keyId ∧ m.iteration = s.chain.iteration ∧ m.ciphertext = some body ∧
      encryptCbc C none (some (groupKey C s.chain).iv) (groupKey C s.chain).cipherKey x.1 = .ok body := by
    intro x
    obtain ⟨m, body, content, h1, h2, h3, h4, -, h5, -⟩ := GStore.encrypt_ok C S hSer st n s rest k hl hk x.1 x.2
    refine ⟨m, body, ?_, h2, h3, h4, h5⟩
    simp only [GStore.encrypt, hl] at h1
    revert h1
    simp only [groupEncrypt]
    generalize (s.chain.msgKey C).bind _ = o
    cases o with
    | ok m' => intro h; simp only [Res.ok.injEq] at h; rw [h]
    | err e => intro h; simp at h
    | panic => intro h; simp at h
  obtain ⟨m1, b1, e1, a1, a2, a3, a4⟩ := step x1
  obtain ⟨m2, b2, e2, c1, c2, c3, c4⟩ := step x2
  refine ⟨[0, 1, 0, 1], m1, m2, b1, b2, ?_, by rw [a1, c1], by rw [a2, c2], a3, c3, a4, c4⟩
  simp [GEncSys.run, GEncSys.step, GEncSys.init, hl, e1, e2]

/-- The invariant under mutual exclusion. -/
structure GMutexInv (C : Crypto) (n : SenderKeyName) (s : SKState) (rest : GRec) (x : GEncSys) : Prop where
  load : x.store.load n = .ok (some ({ s with chain := s.chain.iter C x.out.length } :: rest))
  idle : ∀ i, x.lock ≠ some i → x.pc i = .idle
  loaded : ∀ i m r, x.pc i = .loaded m r → m.keyId = s.keyId ∧ m.iteration = s.chain.iteration + UInt32.ofNat x.out.length ∧
    r = { s with chain := s.chain.iter C (x.out.length + 1) } :: rest
  out : ∀ (p i : Nat) (m : SenderKeyMsg), x.out[p]? = some (i, m) → m.keyId = s.keyId ∧ m.iteration = s.chain.iteration + UInt32.ofNat p

theorem siter_iteration (C : Crypto) (b : SChainKey) (c : Nat) : (b.iter C c).iteration = b.iteration + UInt32.ofNat c := by
  induction c generalizing b with
  | zero => simp [SChainKey.iter]
  | succ c ih =>
    rw [SChainKey.iter_succ, ih, snext_iteration]
    apply UInt32.toNat_inj.1
    simp only [UInt32.toNat_add, UInt32.toNat_ofNat', UInt32.toNat_one]
    omega

theorem GMutexInv.step {C : Crypto} {S : Ser SKStruct} {n : SenderKeyName} {s : SKState} {rest : GRec} {k : Key32} (hk : s.signing.priv = some k) {x : GEncSys}
    (h : GMutexInv C n s rest x) (i : Nat) : GMutexInv C n s rest (x.step C S n true i) := by
  have hloaded : Loaded (s :: rest) := by
    have := GStore.loaded h.load
    intro y hy
    rcases List.mem_cons.1 hy with rfl | hy
    · exact ⟨k, hk⟩
    · exact this y (List.mem_cons_of_mem _ hy)
  unfold GEncSys.step
  by_cases hb : (true && (x.lock.isSome && x.lock != some i)) = true
  · rw [if_pos hb]; exact h
  rw [if_neg hb]
  have others : ∀ j, j ≠ i → x.pc j = .idle := by
    intro j hj
    apply h.idle
    intro hl
    apply hb
    simp [hl, hj]
  cases hpc : x.pc i with
  | idle =>
    simp only
    cases x.todo i with
    | nil => exact h
    | cons y todo =>
      obtain ⟨pt, rand⟩ := y
      simp only [h.load]
      have hkeep : GMutexInv C n s rest { x with todo := fun j => if j = i then todo else x.todo j } := ⟨h.load, h.idle, h.loaded, h.out⟩
      simp only [groupEncrypt, msgKey_eq, Res.bind_ok, newSenderKeyMessage, hk]
      cases encryptCbc C none (some (groupKey C (s.chain.iter C x.out.length)).iv) (groupKey C (s.chain.iter C x.out.length)).cipherKey pt with
      | err e => exact hkeep
      | panic => exact hkeep
      | ok ct =>
        simp only [Res.bind_ok, groupKey_iteration]
        generalize (SenderKeyMsg.mk (UInt32.ofNat currentVersion) s.keyId (s.chain.iter C x.out.length).iteration (some ct) none).serialize S = o
        cases o with
        | err e => exact hkeep
        | panic => exact hkeep
        | ok content =>
          simp only [Res.map_ok]
          refine ⟨h.load, ?_, ?_, h.out⟩
          · intro j hj
            have : j ≠ i := fun e => hj (by rw [e])
            simp only [if_neg this]
            exact others j this
          · intro j m r hm
            by_cases hj : j = i
            · simp only [if_pos hj] at hm
              cases hm
              exact ⟨rfl, siter_iteration C _ _, rfl⟩
            · simp only [if_neg hj] at hm
              rw [others j hj] at hm
              cases hm
  | loaded m r =>
    simp only
    obtain ⟨h1, h2, h3⟩ := h.loaded i m r hpc
    subst h3
    refine ⟨?_, ?_, ?_, ?_⟩
    · simp only [List.length_append, List.length_singleton]
      apply GStore.load_save_loaded
      intro y hy
      rcases List.mem_cons.1 hy with rfl | hy
      · exact ⟨k, hk⟩
      · exact hloaded y (List.mem_cons_of_mem _ hy)
    · intro j _
      by_cases hj : j = i
      · simp only [if_pos hj]
      · simp only [if_neg hj]; exact others j hj
    · intro j m' r' hm
      by_cases hj : j = i
      · simp only [if_pos hj] at hm; cases hm
      · simp only [if_neg hj] at hm; rw [others j hj] at hm; cases hm
    · intro p j m' hm
      by_cases hp : p < x.out.length
      · rw [List.getElem?_append_left hp] at hm
        exact h.out p j m' hm
      · rw [List.getElem?_append_right (by omega)] at hm
        have hp0 : p - x.out.length = 0 := by
          by_contra hne
          rw [List.getElem?_eq_none (by simp; omega)] at hm
          cases hm
        rw [hp0] at hm
        simp only [List.getElem?_cons_zero, Option.some.injEq, Prod.mk.injEq] at hm
        obtain ⟨rfl, rfl⟩ := hm
        have : p = x.out.length := by omega
        rw [this]
        exact ⟨h1, h2⟩

/-- **C76 (partial: under mutual exclusion).** If the application holds one lock per Encrypt call, then for any number of goroutines sending any texts to a group, under every
schedule, the messages returned so far carry consecutive iterations; fewer than 2^32 of them carry pairwise different ones.
Missing: the library takes no lock, and without one the property is false (C76_concurrent_false). -/
theorem C76_with_mutex_partial (C : Crypto) (S : Ser SKStruct) (n : SenderKeyName) (st : GStore) (s : SKState) (rest : GRec) (k : Key32)
    (hl : st.load n = .ok (some (s :: rest))) (hk : s.signing.priv = some k) (todo : Nat → List (Bytes × Arr 64)) (sched : List Nat) :
    let out := ((GEncSys.init st todo).run C S n true sched).out
    (∀ (p i : Nat) (m : SenderKeyMsg), out[p]? = some (i, m) → m.keyId = s.keyId ∧ m.iteration = s.chain.iteration + UInt32.ofNat p) ∧
    (out.length < 2 ^ 32 → ∀ (p p' i i' : Nat) (m m' : SenderKeyMsg), p < p' → out[p]? = some (i, m) → out[p']? = some (i', m') → m.iteration ≠ m'.iteration) := by
  have hinit : GMutexInv C n s rest (GEncSys.init st todo) :=
    ⟨hl, fun _ _ => rfl, fun i m r h => by simp [GEncSys.init] at h, fun p i m h => by simp [GEncSys.init] at h⟩
  have hinv : ∀ (sched : List Nat) (x : GEncSys), GMutexInv C n s rest x → GMutexInv C n s rest (x.run C S n true sched) := by
    intro sched
    induction sched with
    | nil => intro x hx; exact hx
    | cons i sched ih => intro x hx; exact ih _ (hx.step hk i)
  have hout := (hinv sched _ hinit).out
  refine ⟨hout, ?_⟩
  intro hlen p p' i i' m m' hlt hm hm' he
  rw [(hout p i m hm).2, (hout p' i' m' hm').2] at he
  have hp' : p' < 2 ^ 32 := Nat.lt_trans (List.getElem?_eq_some_iff.1 hm').1 hlen
  have := congrArg UInt32.toNat he
  simp only [UInt32.toNat_add, UInt32.toNat_ofNat'] at this
  have := s.chain.iteration.toNat_lt
  omega

section
open Toy
/-- Two goroutines. -/
def gTodo : Nat → List (Bytes × Arr 64) := fun i => if i = 0 then [([1], gRand), ([2], gRand)] else if i = 1 then [([3], gRand)] else []
set_option maxRecDepth 100000 in
/-- Non-vacuity of C76: an interleaved schedule with and without the lock. -/
example : ((GEncSys.init gSender gTodo).run C protoSK gName true [0, 1, 0, 1, 0, 1, 0, 0]).out.map (fun x => (x.1, x.2.iteration)) = [(0, 0), (1, 1), (0, 2)] ∧
    ((GEncSys.init gSender gTodo).run C protoSK gName false [0, 1, 0, 1, 0, 0]).out.map (fun x => (x.1, x.2.iteration)) = [(0, 0), (1, 0), (0, 1)] := by
  decide +kernel
end

end Verif

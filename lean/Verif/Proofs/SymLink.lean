import Verif.Proofs.Symbolic
import Verif.Props.Schedule
import Verif.Proofs.Encrypt
/- The model's session states seen as symbolic states. -/
set_option linter.unusedSimpArgs false
namespace Verif
open Schedule Sym

/-- Message keys are the values of the terms. -/
structure KeysAre (H : Bytes → Bytes → Bytes) (k : MsgKeys) (t : MsgTerms) : Prop where
  cipher : k.cipherKey = t.cipher.eval H
  mac : k.macKey = t.mac.eval H
  iv : k.iv = (t.iv.eval H).take 16

/-- A receiving chain holds the values of the terms. -/
structure ChainIs (H : Bytes → Bytes → Bytes) (c : Chain) (t : ChainTerms) : Prop where
  name : c.pair.pub.bytes = t.name
  ck : c.chainKey.key = t.ck.eval H
  skipped : List.Forall₂ (KeysAre H) c.msgKeys t.skipped

/-- Every key stored in the session state is the value of a term of the symbolic state, and conversely. -/
structure SymHolds (H : Bytes → Bytes → Bytes) (s : SState) (t : State) : Prop where
  root : s.rootKey = some (t.root.eval H)
  send : ∃ sc, s.senderChain = some sc ∧ sc.chainKey.key = t.send.eval H ∧ sc.msgKeys = []
  recv : List.Forall₂ (ChainIs H) s.receiverChains t.recv

theorem eval_T (H : Bytes → Bytes → Bytes) (prk : Term) (info : Bytes) :
    (T1 prk info).eval H = T H (prk.eval H) info 1 ∧ (T2 prk info).eval H = T H (prk.eval H) info 2 ∧
    (T3 prk info).eval H = T H (prk.eval H) info 3 := by
  simp [T1, T2, T3, Term.eval, T, List.append_assoc]

theorem T_length (C : Crypto) (prk info : Bytes) (n : Nat) : (T C.H prk info (n + 1)).length = 32 := (C.hmac _ _).len

theorem hkdf80 (C : Crypto) (salt ikm info : Bytes) :
    hkdf C.H salt ikm info 80 = T C.H (C.H salt ikm) info 1 ++ (T C.H (C.H salt ikm) info 2 ++ (T C.H (C.H salt ikm) info 3).take 16) := by
  have h1 := T_length C (C.H salt ikm) info 0
  have h2 := T_length C (C.H salt ikm) info 1
  have h3 := T_length C (C.H salt ikm) info 2
  simp only [hkdf, show (80 + 31) / 32 = 3 from rfl, blocks, List.nil_append]
  simp only [List.append_assoc, List.take_append, h1, h2, h3]
  rw [List.take_of_length_le (by omega), List.take_of_length_le (by omega)]

theorem hkdf64 (C : Crypto) (salt ikm info : Bytes) :
    (hkdf C.H salt ikm info 64).take 32 = T C.H (C.H salt ikm) info 1 ∧ (hkdf C.H salt ikm info 64).drop 32 = T C.H (C.H salt ikm) info 2 := by
  have h1 := T_length C (C.H salt ikm) info 0
  have h2 := T_length C (C.H salt ikm) info 1
  have : hkdf C.H salt ikm info 64 = T C.H (C.H salt ikm) info 1 ++ T C.H (C.H salt ikm) info 2 := by
    simp only [hkdf, show (64 + 31) / 32 = 2 from rfl, blocks, List.nil_append]
    rw [List.take_of_length_le (by simp [h1, h2])]
  rw [this]
  exact ⟨List.take_left' h1, List.drop_left' h1⟩

theorem keysAre_msg (C : Crypto) {ck : ChainKey} {t : Term} (h : ck.key = t.eval C.H) : KeysAre C.H (ck.msgKeys C) (msg t) := by
  obtain ⟨-, -, h3, l1, l2, l3⟩ := C54_chain C ck 0
  simp only [ChainKey.iter, messageMaterial, chainKey] at h3 l1 l2 l3
  rw [hkdf80, List.append_assoc] at h3
  obtain ⟨e1, h4⟩ := List.append_inj h3 (by rw [l1, T_length])
  obtain ⟨e2, e3⟩ := List.append_inj h4 (by rw [l2, T_length])
  have hp : (msgPrk t).eval C.H = C.H noSalt (C.H ck.key [1]) := by rw [h]; rfl
  obtain ⟨t1, t2, t3⟩ := eval_T C.H (msgPrk t) (ascii "WhisperMessageKeys")
  rw [hp] at t1 t2 t3
  exact ⟨by rw [e1]; exact t1.symm, by rw [e2]; exact t2.symm, by rw [e3]; exact congrArg _ t3.symm⟩

theorem next_eval (C : Crypto) {ck : ChainKey} {t : Term} (h : ck.key = t.eval C.H) : (ck.next C).key = (next t).eval C.H := by
  show C.H ck.key [2] = _
  rw [h]; rfl

theorem kdfRoot_eval (C : Crypto) {root : Bytes} {t d : Term} {v : Key32} (h : root = t.eval C.H) (hd : v.bytes = d.eval C.H) :
    (kdfRoot C root v).root = (rootOf t d).eval C.H ∧ (kdfRoot C root v).chain.key = (chainOf t d).eval C.H := by
  have hk : kdfRoot C root v = SessionKeys.ofSecrets (hkdf C.H root v.bytes (ascii "WhisperRatchet") 64) := by
    unfold kdfRoot
    rw [C54_hkdf, if_pos (by omega)]
    rfl
  obtain ⟨h1, h2⟩ := hkdf64 C root v.bytes (ascii "WhisperRatchet")
  obtain ⟨t1, t2, -⟩ := eval_T C.H (.hash t d) (ascii "WhisperRatchet")
  have hp : (Term.hash t d).eval C.H = C.H root v.bytes := by rw [h, hd]; rfl
  rw [hp] at t1 t2
  rw [hk]
  exact ⟨h1.trans t1.symm, h2.trans t2.symm⟩

theorem dhTerm_eval (H : Bytes → Bytes → Bytes) (U : Bytes → Prop) (v : Bytes) : (dhTerm U v).eval H = v := by
  unfold dhTerm; split <;> rfl

/-! ### Lists -/

theorem forall₂_append_left {α β : Type} {R : α → β → Prop} {l₁ l₂ : List α} {l : List β} (h : List.Forall₂ R (l₁ ++ l₂) l) :
    ∃ m₁ m₂, l = m₁ ++ m₂ ∧ List.Forall₂ R l₁ m₁ ∧ List.Forall₂ R l₂ m₂ := by
  induction l₁ generalizing l with
  | nil => exact ⟨[], l, rfl, .nil, h⟩
  | cons a l₁ ih =>
    cases h with
    | cons ha ht =>
      obtain ⟨m₁, m₂, rfl, h1, h2⟩ := ih ht
      exact ⟨_ :: m₁, m₂, rfl, .cons ha h1, h2⟩

theorem forall₂_append {α β : Type} {R : α → β → Prop} {l₁ l₂ : List α} {m₁ m₂ : List β} (h1 : List.Forall₂ R l₁ m₁) (h2 : List.Forall₂ R l₂ m₂) :
    List.Forall₂ R (l₁ ++ l₂) (m₁ ++ m₂) := by
  induction h1 with
  | nil => exact h2
  | cons ha _ ih => exact .cons ha ih

theorem forall₂_length {α β : Type} {R : α → β → Prop} {l : List α} {m : List β} (h : List.Forall₂ R l m) : l.length = m.length := by
  induction h with
  | nil => rfl
  | cons _ _ ih => simp [ih]

theorem modifyFirst_split {α : Type} {p : α → Bool} {l : List α} {c : α} (h : l.find? p = some c) :
    ∃ pre post, l = pre ++ c :: post ∧ p c = true ∧ ∀ f : α → α, modifyFirst p f l = pre ++ f c :: post := by
  induction l with
  | nil => simp at h
  | cons a l ih =>
    rw [List.find?_cons] at h
    cases hp : p a with
    | true =>
      simp only [hp, Option.some.injEq] at h
      subst h
      exact ⟨[], l, rfl, hp, fun f => by simp [modifyFirst, hp]⟩
    | false =>
      simp only [hp] at h
      obtain ⟨pre, post, rfl, hc, hf⟩ := ih h
      exact ⟨a :: pre, post, rfl, hc, fun f => by simp [modifyFirst, hp, hf f]⟩

theorem eraseP_split {α : Type} {p : α → Bool} {l : List α} {k : α} (h : l.find? p = some k) :
    ∃ a b, l = a ++ k :: b ∧ l.eraseP p = a ++ b := by
  induction l with
  | nil => simp at h
  | cons x l ih =>
    rw [List.find?_cons] at h
    cases hp : p x with
    | true =>
      simp only [hp, Option.some.injEq] at h
      subst h
      exact ⟨[], l, rfl, by simp [List.eraseP_cons, hp]⟩
    | false =>
      simp only [hp] at h
      obtain ⟨a, b, rfl, he⟩ := ih h
      exact ⟨x :: a, b, rfl, by simp [List.eraseP_cons, hp, he]⟩

theorem Sym.Run.trans {U : Bytes → Prop} {s s' s'' : State} {es es' : List Use} (h : Run U s s' es) (h' : Run U s' s'' es') :
    Run U s s'' (es ++ es') := by
  induction h' with
  | refl => simpa using h
  | step _ hs ih => rw [← List.append_assoc]; exact .step ih hs

theorem Sym.Run.single {U : Bytes → Prop} {s s' : State} {e : Option Use} (h : Step U s s' e) : Run U s s' e.toList := by
  have := Run.step (.refl s) h
  simpa using this

/-! ### Operations on one chain -/

/-- Skipping `n` messages. -/
theorem pushSkipped_run (C : Crypto) (U : Bytes → Prop) (root send : Term) (pre post : List ChainTerms) (nm : Bytes) (n : Nat) :
    ∀ (ck : ChainKey) (l : List MsgKeys) (t : Term) (lt : List MsgTerms), ck.key = t.eval C.H → List.Forall₂ (KeysAre C.H) l lt →
      ∃ t' lt', Run U ⟨root, send, pre ++ ⟨nm, t, lt⟩ :: post⟩ ⟨root, send, pre ++ ⟨nm, t', lt'⟩ :: post⟩ [] ∧
        (ck.iter C n).key = t'.eval C.H ∧ List.Forall₂ (KeysAre C.H) (pushSkipped C n ck l) lt' := by
  induction n with
  | zero => exact fun ck l t lt h1 h2 => ⟨t, lt, .refl _, h1, h2⟩
  | succ n ih =>
    intro ck l t lt h1 h2
    have hk : List.Forall₂ (KeysAre C.H) (l ++ [ck.msgKeys C]) (lt ++ [msg t]) :=
      forall₂_append h2 (.cons (keysAre_msg C h1) .nil)
    have hs := Run.single (Step.skip (U := U) root send pre post nm t lt)
    have hcap : ∃ lt1, Run U ⟨root, send, pre ++ ⟨nm, t, lt⟩ :: post⟩ ⟨root, send, pre ++ ⟨nm, next t, lt1⟩ :: post⟩ [] ∧
        List.Forall₂ (KeysAre C.H) (capPush l (ck.msgKeys C)) lt1 := by
      unfold capPush
      simp only
      split
      · cases hl : lt ++ [msg t] with
        | nil => simp at hl
        | cons k r =>
          have hs2 := Run.single (Step.forgetKey (U := U) root send pre post nm (next t) [] r k)
          rw [hl] at hs hk
          refine ⟨r, by simpa using hs.trans hs2, ?_⟩
          generalize l ++ [ck.msgKeys C] = ll at hk
          cases hk with
          | cons _ h => simpa using h
      · exact ⟨_, hs, hk⟩
    obtain ⟨lt1, hr1, hk1⟩ := hcap
    obtain ⟨t', lt', hr2, h3, h4⟩ := ih (ck.next C) (capPush l (ck.msgKeys C)) (next t) lt1 (next_eval C h1) hk1
    refine ⟨t', lt', by simpa using hr1.trans hr2, ?_, h4⟩
    rw [ChainKey.iter_succ]
    exact h3

theorem recv_run (C : Crypto) (U : Bytes → Prop) (root send : Term) (pre post : List ChainTerms) (c c' : Chain) (ct : ChainTerms) (ctr : UInt32)
    (mk : MsgKeys) (h : c.recv C ctr = (.ok mk, c')) (hc : ChainIs C.H c ct) :
    ∃ ct' k, Run U ⟨root, send, pre ++ ct :: post⟩ ⟨root, send, pre ++ ct' :: post⟩ [⟨some c.pair.pub.bytes, k⟩] ∧ ChainIs C.H c' ct' ∧
      KeysAre C.H mk k := by
  obtain ⟨nm, t, lt⟩ := ct
  obtain ⟨h1, h2, h3⟩ := hc
  simp only at h1 h2 h3
  unfold Chain.recv at h
  split at h
  · cases hf : c.msgKeys.find? (fun k => k.index == ctr) with
    | none => simp [hf] at h
    | some k =>
      simp only [hf, Prod.mk.injEq, Res.ok.injEq] at h
      obtain ⟨rfl, rfl⟩ := h
      obtain ⟨a, b, hl, he⟩ := eraseP_split hf
      rw [hl] at h3
      obtain ⟨m1, m2, rfl, g1, g2⟩ := forall₂_append_left h3
      cases g2 with
      | @cons _ kt _ mt hk g2 =>
        refine ⟨⟨nm, t, m1 ++ mt⟩, kt, ?_, ⟨h1, h2, ?_⟩, hk⟩
        · rw [h1]
          exact Run.single (Step.late (U := U) root send pre post nm t m1 mt kt)
        · simp only [he]
          exact forall₂_append g1 g2
  · split at h
    · simp at h
    · simp only [Prod.mk.injEq, Res.ok.injEq] at h
      obtain ⟨rfl, rfl⟩ := h
      obtain ⟨t', lt', hr, e1, e2⟩ := pushSkipped_run C U root send pre post nm (ctr - c.chainKey.index).toNat c.chainKey c.msgKeys t lt h2 h3
      have hs := Run.single (Step.receive (U := U) root send pre post nm t' lt')
      refine ⟨⟨nm, next t', lt'⟩, msg t', ?_, ⟨h1, next_eval C e1, e2⟩, keysAre_msg C e1⟩
      rw [h1]
      simpa using hr.trans hs

theorem chain_run (C : Crypto) (U : Bytes → Prop) (s : SState) (t : State) (eph : Key32) (c c' : Chain) (ctr : UInt32) (mk : MsgKeys)
    (hs : SymHolds C.H s t) (hc : s.receiverChain eph = some c) (h : c.recv C ctr = (.ok mk, c')) :
    ∃ t' k, Run U t t' [⟨some eph.bytes, k⟩] ∧ SymHolds C.H (s.modifyChain eph fun _ => c') t' ∧ KeysAre C.H mk k := by
  obtain ⟨pre, post, hl, hp, hf⟩ := modifyFirst_split hc
  have heph : c.pair.pub = eph := by simpa using hp
  obtain ⟨root, send, recv⟩ := t
  obtain ⟨h1, h2, h3⟩ := hs
  simp only at h1 h2 h3
  rw [hl] at h3
  obtain ⟨m1, m2, rfl, g1, g2⟩ := forall₂_append_left h3
  cases g2 with
  | @cons _ ct _ mt hk g2 =>
    obtain ⟨ct', k, hr, hc', hmk⟩ := recv_run C U root send m1 mt c c' ct ctr mk h hk
    rw [heph] at hr
    refine ⟨_, k, hr, ⟨h1, h2, ?_⟩, hmk⟩
    show List.Forall₂ _ (modifyFirst _ _ s.receiverChains) _
    rw [hf]
    exact forall₂_append g1 (.cons hc' g2)

theorem ratchet_run (C : Crypto) (U : Bytes → Prop) (s : SState) (t : State) (eph : Key32) (root : Bytes) (i : UInt32) (p r : Key32)
    (hs : SymHolds C.H s t) (hr : s.rootKey = some root) :
    ∃ t1 t2, Step U t t1 none ∧ Run U t1 t2 [] ∧ SymHolds C.H (ratchetStep C s eph root i p r) t2 ∧
      t1 = ⟨rootOf (rootOf t.root (dhTerm U (C.dh eph p).bytes)) (dhTerm U (C.dh eph r).bytes),
        chainOf (rootOf t.root (dhTerm U (C.dh eph p).bytes)) (dhTerm U (C.dh eph r).bytes),
        t.recv ++ [⟨eph.bytes, chainOf t.root (dhTerm U (C.dh eph p).bytes), []⟩]⟩ := by
  obtain ⟨troot, send, recv⟩ := t
  obtain ⟨h1, h2, h3⟩ := hs
  rw [hr] at h1
  simp only [Option.some.injEq] at h1
  obtain ⟨e1, e2⟩ := kdfRoot_eval C (t := troot) (d := dhTerm U (C.dh eph p).bytes) (v := C.dh eph p) h1 (dhTerm_eval _ _ _).symm
  obtain ⟨e3, e4⟩ := kdfRoot_eval C (root := (kdfRoot C root (C.dh eph p)).root) (d := dhTerm U (C.dh eph r).bytes) (v := C.dh eph r) e1
    (dhTerm_eval _ _ _).symm
  have hl : List.Forall₂ (ChainIs C.H) (s.receiverChains ++ [⟨⟨eph, none⟩, (kdfRoot C root (C.dh eph p)).chain, []⟩])
      (recv ++ [⟨eph.bytes, chainOf troot (dhTerm U (C.dh eph p).bytes), []⟩]) :=
    forall₂_append h3 (.cons ⟨rfl, e2, .nil⟩ .nil)
  obtain ⟨recv', hrecv'⟩ : ∃ recv' : List ChainTerms, recv' = if maxReceiverChains < (s.receiverChains ++ [(⟨⟨eph, none⟩, (kdfRoot C root (C.dh eph p)).chain, []⟩ : Chain)]).length
      then (recv ++ [(⟨eph.bytes, chainOf troot (dhTerm U (C.dh eph p).bytes), []⟩ : ChainTerms)]).drop 1
      else recv ++ [⟨eph.bytes, chainOf troot (dhTerm U (C.dh eph p).bytes), []⟩] := ⟨_, rfl⟩
  refine ⟨_, ⟨rootOf (rootOf troot (dhTerm U (C.dh eph p).bytes)) (dhTerm U (C.dh eph r).bytes),
        chainOf (rootOf troot (dhTerm U (C.dh eph p).bytes)) (dhTerm U (C.dh eph r).bytes), recv'⟩,
    Step.ratchet (U := U) troot send recv eph.bytes (C.dh eph p).bytes (C.dh eph r).bytes, ?_, ?_, rfl⟩
  · subst hrecv'
    split
    · cases hx : recv ++ [⟨eph.bytes, chainOf troot (dhTerm U (C.dh eph p).bytes), []⟩] with
      | nil => simp at hx
      | cons c rest =>
        have := Run.single (Step.forgetChain (U := U) (rootOf (rootOf troot (dhTerm U (C.dh eph p).bytes)) (dhTerm U (C.dh eph r).bytes))
          (chainOf (rootOf troot (dhTerm U (C.dh eph p).bytes)) (dhTerm U (C.dh eph r).bytes)) [] rest c)
        simpa using this
    · exact .refl _
  · have hsend : ∃ sc, (ratchetStep C s eph root i p r).senderChain = some sc ∧
        sc.chainKey.key = (chainOf (rootOf troot (dhTerm U (C.dh eph p).bytes)) (dhTerm U (C.dh eph r).bytes)).eval C.H ∧ sc.msgKeys = [] :=
      ⟨_, rfl, e4, rfl⟩
    have hroot : (ratchetStep C s eph root i p r).rootKey =
        some ((rootOf (rootOf troot (dhTerm U (C.dh eph p).bytes)) (dhTerm U (C.dh eph r).bytes)).eval C.H) := congrArg some e3
    have hrecv : (ratchetStep C s eph root i p r).receiverChains =
        if maxReceiverChains < (s.receiverChains ++ [(⟨⟨eph, none⟩, (kdfRoot C root (C.dh eph p)).chain, []⟩ : Chain)]).length then
          (s.receiverChains ++ [(⟨⟨eph, none⟩, (kdfRoot C root (C.dh eph p)).chain, []⟩ : Chain)]).drop 1
        else s.receiverChains ++ [(⟨⟨eph, none⟩, (kdfRoot C root (C.dh eph p)).chain, []⟩ : Chain)] := rfl
    refine ⟨hroot, hsend, ?_⟩
    subst hrecv'
    rw [hrecv]
    simp only
    split
    · clear hrecv
      generalize s.receiverChains ++ [(⟨⟨eph, none⟩, (kdfRoot C root (C.dh eph p)).chain, []⟩ : Chain)] = ll at hl
      generalize recv ++ [(⟨eph.bytes, chainOf troot (dhTerm U (C.dh eph p).bytes), []⟩ : ChainTerms)] = mm at hl
      cases hl with
      | nil => exact .nil
      | cons _ h => exact h
    · exact hl

end Verif

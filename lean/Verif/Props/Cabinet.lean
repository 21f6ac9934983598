import Verif.Spec.Cabinet
import Verif.Proofs.Window
import Verif.Proofs.States
import Verif.Proofs.SymLink
import Verif.Model.Groups
/-
C84: the exported methods of a session state, over every history of calls.
-/
namespace Verif

open Cabinet

/-- A call on the receiving side: state/record/state_session.go:266-282 `AddReceiverChain`, 396-400 `SetReceiverChainKey`, 375-392 `SetMessageKeys`,
336-371 `RemoveMessageKeys` (the key it returns is looked at in the theorem). -/
def SState.call (s : SState) : Op Key32 ChainKey MsgKeys → Res SState
  | .add e v => .ok (s.addReceiverChain e v)
  | .setChain e v => s.setReceiverChainKey e v
  | .keep e m => s.setMessageKeys e m
  | .take e n => match s.removeMessageKeys e n with
    | (.ok _, s') => .ok s'
    | (.err x, _) => .err x
    | (.panic, _) => .panic

/-- A history of calls, newest first. -/
def SState.calls (s : SState) : List (Op Key32 ChainKey MsgKeys) → Res SState
  | [] => .ok s
  | o :: h => (s.calls h).bind (·.call o)

namespace Cabinet

/-- What the state looks like after a history. -/
structure Shows (h : List (Op Key32 ChainKey MsgKeys)) (s0 s : SState) : Prop where
  rest : s = { s0 with receiverChains := s.receiverChains }
  names : s.receiverChains.map (·.pair.pub) = (present h).reverse
  nodup : (s.receiverChains.map (·.pair.pub)).Nodup
  chain : ∀ c ∈ s.receiverChains, lastChain c.pair.pub h = some c.chainKey
  keys : ∀ c ∈ s.receiverChains, c.msgKeys = kept MsgKeys.index c.pair.pub h

theorem nodup_rev {α : Type} {l : List α} : l.reverse.Nodup ↔ l.Nodup := by
  simp only [List.Nodup, List.pairwise_reverse]
  exact ⟨fun h => h.imp fun h => h.symm, fun h => h.imp fun h => h.symm⟩

theorem find_pub {l : List Chain} {e : Key32} (h : e ∈ l.map (·.pair.pub)) :
    ∃ c ∈ l, c.pair.pub = e ∧ l.find? (fun c => c.pair.pub == e) = some c := by
  cases hf : l.find? (fun c => c.pair.pub == e) with
  | some c => exact ⟨c, List.mem_of_find?_eq_some hf, by simpa using List.find?_some hf, rfl⟩
  | none =>
    obtain ⟨c, hc, he⟩ := List.mem_map.1 h
    have := List.find?_eq_none.1 hf c hc
    simp [he] at this

theorem Shows.mem {h s0 s e} (H : Shows h s0 s) : e ∈ present h ↔ e ∈ s.receiverChains.map (·.pair.pub) := by
  rw [H.names, List.mem_reverse]

theorem Shows.chainOf {h s0 s e} (H : Shows h s0 s) (he : e ∈ present h) :
    ∃ c ∈ s.receiverChains, c.pair.pub = e ∧ s.receiverChain e = some c ∧ lastChain e h = some c.chainKey ∧ c.msgKeys = kept MsgKeys.index e h := by
  obtain ⟨c, hc, hp, hf⟩ := find_pub (H.mem.1 he)
  exact ⟨c, hc, hp, hf, hp ▸ H.chain c hc, hp ▸ H.keys c hc⟩

theorem modify_names {l : List Chain} {e : Key32} {f : Chain → Chain} (hf : ∀ c, (f c).pair.pub = c.pair.pub) :
    (modifyFirst (fun c => c.pair.pub == e) f l).map (·.pair.pub) = l.map (·.pair.pub) := by
  induction l with
  | nil => rfl
  | cons a l ih => simp only [modifyFirst]; split <;> simp_all

theorem modify_mem {l : List Chain} {e : Key32} {f : Chain → Chain} (hn : (l.map (·.pair.pub)).Nodup) {x : Chain}
    (hx : x ∈ modifyFirst (fun c => c.pair.pub == e) f l) : (x ∈ l ∧ x.pair.pub ≠ e) ∨ ∃ c ∈ l, c.pair.pub = e ∧ x = f c := by
  induction l with
  | nil => cases hx
  | cons a l ih =>
    simp only [modifyFirst] at hx
    rw [List.map_cons, List.nodup_cons] at hn
    split at hx
    · rename_i ha
      have ha : a.pair.pub = e := by simpa using ha
      rcases List.mem_cons.1 hx with rfl | hx
      · exact .inr ⟨a, List.mem_cons_self, ha, rfl⟩
      · exact .inl ⟨List.mem_cons_of_mem _ hx, fun he => hn.1 (List.mem_map.2 ⟨x, hx, he.trans ha.symm⟩)⟩
    · rename_i ha
      have ha : ¬ a.pair.pub = e := by simpa using ha
      rcases List.mem_cons.1 hx with rfl | hx
      · exact .inl ⟨List.mem_cons_self, ha⟩
      · rcases ih hn.2 hx with ⟨h1, h2⟩ | ⟨c, h1, h2, h3⟩
        · exact .inl ⟨List.mem_cons_of_mem _ h1, h2⟩
        · exact .inr ⟨c, List.mem_cons_of_mem _ h1, h2, h3⟩

/-- A call that changes one chain. -/
theorem Shows.modify {h s0 s e} (H : Shows h s0 s) (o : Op Key32 ChainKey MsgKeys) (f : Chain → Chain) (hp : ∀ c, (f c).pair.pub = c.pair.pub)
    (hpr : present (o :: h) = present h)
    (hother : ∀ e', e' ≠ e → lastChain e' (o :: h) = lastChain e' h ∧ kept MsgKeys.index e' (o :: h) = kept MsgKeys.index e' h)
    (hthis : ∀ c ∈ s.receiverChains, c.pair.pub = e →
      lastChain e (o :: h) = some (f c).chainKey ∧ (f c).msgKeys = kept MsgKeys.index e (o :: h)) :
    Shows (o :: h) s0 (s.modifyChain e f) where
  rest := by rw [SState.modifyChain, H.rest]
  names := by rw [hpr, ← H.names]; exact modify_names hp
  nodup := by
    have : (s.modifyChain e f).receiverChains.map (·.pair.pub) = s.receiverChains.map (·.pair.pub) := modify_names hp
    rw [this]; exact H.nodup
  chain := fun x hx => by
    rcases modify_mem H.nodup hx with ⟨h1, h2⟩ | ⟨c, h1, h2, rfl⟩
    · rw [(hother _ h2).1]; exact H.chain x h1
    · rw [hp, h2]; exact (hthis c h1 h2).1
  keys := fun x hx => by
    rcases modify_mem H.nodup hx with ⟨h1, h2⟩ | ⟨c, h1, h2, rfl⟩
    · rw [(hother _ h2).2]; exact H.keys x h1
    · rw [hp, h2]; exact (hthis c h1 h2).2

theorem eraseP_findIdx {l : List MsgKeys} {n : UInt32} :
    (∃ m ∈ l, m.index = n) → ∃ i m, l.findIdx? (fun k => k.index == n) = some i ∧ l[i]? = some m ∧ l.find? (fun k => k.index == n) = some m ∧
      l.eraseIdx i = l.eraseP (fun k => k.index == n) := by
  induction l with
  | nil => rintro ⟨m, hm, -⟩; cases hm
  | cons a l ih =>
    rintro ⟨m, hm, hn⟩
    by_cases ha : a.index = n
    · exact ⟨0, a, by simp [List.findIdx?_cons, ha], rfl, by simp [ha], by simp [ha]⟩
    · have : ∃ m ∈ l, m.index = n := by
        rcases List.mem_cons.1 hm with rfl | hm
        · exact absurd hn ha
        · exact ⟨m, hm, hn⟩
      obtain ⟨i, m, h1, h2, h3, h4⟩ := ih this
      exact ⟨i + 1, m, by simp [List.findIdx?_cons, ha, h1], by simpa using h2, by simp [ha, h3], by simp [ha, h4]⟩

theorem Shows.add {h s0 s} (H : Shows h s0 s) (e : Key32) (v : ChainKey) (he : e ∉ present h) :
    Shows (.add e v :: h) s0 (s.addReceiverChain e v) := by
  have hlen : s.receiverChains.length = (present h).length := by
    rw [← List.length_map (·.pair.pub), H.names, List.length_reverse]
  have hle : (present h).length ≤ 5 := by simp only [present, List.length_take]; exact Nat.min_le_left ..
  have hnm : (s.addReceiverChain e v).receiverChains.map (·.pair.pub) = (present (.add e v :: h : List (Op Key32 ChainKey MsgKeys))).reverse := by
    have e0 : s.receiverChains.map (·.pair.pub) = (present h).reverse := H.names
    simp only [SState.addReceiverChain]
    have hp : present (.add e v :: h : List (Op Key32 ChainKey MsgKeys)) = e :: (present h).take 4 := by
      simp only [present, added, List.take_take, List.take_succ_cons]; rfl
    rw [hp, List.reverse_cons]
    by_cases hgt : maxReceiverChains < (s.receiverChains ++ [(⟨⟨e, none⟩, v, []⟩ : Chain)]).length
    · rw [if_pos hgt]
      have h5 : (present h).length = 5 := by simp [maxReceiverChains] at hgt; omega
      have ht : (present h).take 4 = (present h).dropLast := by rw [List.dropLast_eq_take, h5]
      rw [ht, List.drop_append_of_le_length (by omega), List.map_append, List.map_drop, e0]
      have : (present h).reverse.drop 1 = (present h).dropLast.reverse := by
        rw [List.drop_one, List.tail_reverse]
      rw [this]; rfl
    · rw [if_neg hgt]
      have h4 : (present h).length ≤ 4 := by simp [maxReceiverChains] at hgt; omega
      rw [List.take_of_length_le h4, List.map_append, e0]; rfl
  have hmem : ∀ c ∈ (s.addReceiverChain e v).receiverChains, c ∈ s.receiverChains ∨ c = ⟨⟨e, none⟩, v, []⟩ := by
    intro c hc
    simp only [SState.addReceiverChain] at hc
    have : c ∈ s.receiverChains ++ [⟨⟨e, none⟩, v, []⟩] := by
      split at hc
      · exact List.mem_of_mem_drop hc
      · exact hc
    rcases List.mem_append.1 this with h1 | h1
    · exact .inl h1
    · exact .inr (List.mem_singleton.1 h1)
  have hne : ∀ c ∈ s.receiverChains, e ≠ c.pair.pub := fun c hc h1 => he (H.mem.2 (h1 ▸ List.mem_map.2 ⟨c, hc, rfl⟩))
  refine ⟨by rw [SState.addReceiverChain, H.rest], hnm, ?_, ?_, ?_⟩
  · rw [hnm, nodup_rev]
    have h1 : (present h).Nodup := by have := H.nodup; rw [H.names, nodup_rev] at this; exact this
    have hp : present (.add e v :: h : List (Op Key32 ChainKey MsgKeys)) = e :: (present h).take 4 := by
      simp only [present, added, List.take_take, List.take_succ_cons]; rfl
    rw [hp, List.nodup_cons]
    exact ⟨fun h2 => he (List.mem_of_mem_take h2), h1.sublist (List.take_sublist ..)⟩
  · intro c hc
    rcases hmem c hc with h1 | rfl
    · simp only [lastChain, if_neg (hne c h1)]; exact H.chain c h1
    · simp [lastChain]
  · intro c hc
    rcases hmem c hc with h1 | rfl
    · simp only [kept, if_neg (hne c h1)]; exact H.keys c h1
    · simp [kept]

theorem shows_calls {s0 : SState} (h0 : s0.receiverChains = []) :
    ∀ h : List (Op Key32 ChainKey MsgKeys), Legal MsgKeys.index h → ∃ s, s0.calls h = .ok s ∧ Shows h s0 s
  | [], _ => ⟨s0, rfl, ⟨rfl, by simp [h0, present, added], by simp [h0], by simp [h0], by simp [h0]⟩⟩
  | .add e v :: h, hl => by
    obtain ⟨s, hs, H⟩ := shows_calls h0 h hl.2
    exact ⟨_, by rw [SState.calls, hs]; rfl, H.add e v hl.1⟩
  | .setChain e v :: h, hl => by
    obtain ⟨s, hs, H⟩ := shows_calls h0 h hl.2
    obtain ⟨c, hc, hp, hf, h1, h2⟩ := H.chainOf hl.1
    refine ⟨_, by rw [SState.calls, hs]; show s.setReceiverChainKey e v = _; rw [SState.setReceiverChainKey, hf], ?_⟩
    refine H.modify _ _ (fun _ => rfl) rfl (fun e' he => ?_) fun c' hc' hp' => ?_
    · exact ⟨by simp [lastChain, Ne.symm he], rfl⟩
    · exact ⟨by simp [lastChain], by rw [← hp']; exact H.keys c' hc'⟩
  | .keep e m :: h, hl => by
    obtain ⟨s, hs, H⟩ := shows_calls h0 h hl.2
    obtain ⟨c, hc, hp, hf, h1, h2⟩ := H.chainOf hl.1
    refine ⟨_, by rw [SState.calls, hs]; show s.setMessageKeys e m = _; rw [SState.setMessageKeys, hf], ?_⟩
    refine H.modify _ _ (fun _ => rfl) rfl (fun e' he => ?_) fun c' hc' hp' => ?_
    · exact ⟨rfl, by simp [kept, Ne.symm he]⟩
    · refine ⟨by have := H.chain c' hc'; rw [hp'] at this; exact this, ?_⟩
      have hk := H.keys c' hc'
      rw [hp'] at hk
      have hle : (kept MsgKeys.index e h).length ≤ 2000 := kept_le e h
      simp only [kept, if_true, Chain.addMsgKeys, hk, maxMessageKeys, List.length_append, List.length_singleton]
      split
      · rename_i hgt; rw [show (kept MsgKeys.index e h).length + 1 - 2000 = 1 by omega]
      · rename_i hgt; rw [show (kept MsgKeys.index e h).length + 1 - 2000 = 0 by omega]; rfl
  | .take e n :: h, hl => by
    obtain ⟨s, hs, H⟩ := shows_calls h0 h hl.2.2
    obtain ⟨c, hc, hp, hf, h1, h2⟩ := H.chainOf hl.1
    obtain ⟨i, m, h3, h4, h5, h6⟩ := eraseP_findIdx hl.2.1
    rw [← h2] at h3 h4 h6
    have hr : s.removeMessageKeys e n = (.ok m, s.modifyChain e (fun c => { c with msgKeys := c.msgKeys.eraseIdx i })) := by
      simp only [SState.removeMessageKeys, hf, h3, Option.getD_some, h4]
    refine ⟨s.modifyChain e (fun c => { c with msgKeys := c.msgKeys.eraseIdx i }), by rw [SState.calls, hs]; show s.call (.take e n) = _; rw [SState.call, hr], ?_⟩
    refine H.modify _ _ (fun _ => rfl) rfl (fun e' he => ?_) fun c' hc' hp' => ?_
    · exact ⟨rfl, by simp [kept, Ne.symm he]⟩
    · have hk := H.keys c' hc'
      rw [hp'] at hk
      refine ⟨by have := H.chain c' hc'; rw [hp'] at this; exact this, ?_⟩
      simp only [kept, if_true]
      rw [hk, ← h2, h6]
where
  kept_le (e : Key32) : ∀ h : List (Op Key32 ChainKey MsgKeys), (kept MsgKeys.index e h).length ≤ 2000
    | [] => by simp [kept]
    | .add e' v :: h => by simp only [kept]; split; · simp
                           · exact kept_le e h
    | .setChain e' v :: h => kept_le e h
    | .keep e' m :: h => by
      simp only [kept]; split
      · rw [List.length_drop, List.length_append, List.length_singleton]; omega
      · exact kept_le e h
    | .take e' n :: h => by
      have := kept_le e h
      simp only [kept]; split
      · exact Nat.le_trans (List.eraseP_sublist.length_le) this
      · exact this

end Cabinet

/-- **C84** (receiving side, every history of calls that the session cipher could make).  None of the calls crashes; a chain is there exactly when it is
among the five added last; for each chain that is there, `ReceiverChainKey` returns the chain key written last, `HasMessageKeys` says whether a key with
that number was kept and not taken (of the newest 2000), `RemoveMessageKeys` returns the one kept first with that number; and nothing else changed. -/
theorem C84_receiving_side_partial (s0 : SState) (h0 : s0.receiverChains = []) (h : List (Op Key32 ChainKey MsgKeys)) (hl : Legal MsgKeys.index h) :
    ∃ s, s0.calls h = .ok s ∧ s = { s0 with receiverChains := s.receiverChains } ∧
      ∀ e, ((s.receiverChain e).isSome ↔ e ∈ present h) ∧
        (e ∈ present h → ∃ v, lastChain e h = some v ∧ s.receiverChainKey e = .ok v ∧
          ∀ n, s.hasMessageKeys e n = .ok ((kept MsgKeys.index e h).any (fun m => m.index == n)) ∧
            ∀ m, (kept MsgKeys.index e h).find? (fun m => m.index == n) = some m → (s.removeMessageKeys e n).1 = .ok m) := by
  obtain ⟨s, hs, H⟩ := shows_calls h0 h hl
  refine ⟨s, hs, H.rest, fun e => ⟨⟨fun hsome => ?_, fun he => ?_⟩, fun he => ?_⟩⟩
  · obtain ⟨c, hc⟩ := Option.isSome_iff_exists.1 hsome
    rw [SState.receiverChain] at hc
    exact H.mem.2 (List.mem_map.2 ⟨c, List.mem_of_find?_eq_some hc, by simpa using List.find?_some hc⟩)
  · obtain ⟨c, -, -, hf, -⟩ := H.chainOf he
    rw [hf]; rfl
  · obtain ⟨c, hc, hp, hf, h1, h2⟩ := H.chainOf he
    refine ⟨c.chainKey, h1, by rw [SState.receiverChainKey, hf], fun n => ⟨by rw [SState.hasMessageKeys, hf]; simp only [h2], fun m hm => ?_⟩⟩
    have hex : ∃ m ∈ kept MsgKeys.index e h, m.index = n := ⟨m, List.mem_of_find?_eq_some hm, by simpa using List.find?_some hm⟩
    obtain ⟨i, m', h3, h4, h5, -⟩ := eraseP_findIdx hex
    rw [hm] at h5
    cases h5
    rw [← h2] at h3 h4
    simp only [SState.removeMessageKeys, hf, h3, Option.getD_some, h4]

/-- **C84** (what is missing, 1): the methods test for an absent chain only after having dereferenced it, so on a chain that was never added (or was
dropped as the sixth) each of them crashes instead of returning nil or false. -/
theorem C84_absent_chain_false (s : SState) (e : Key32) (h : s.receiverChain e = none) (n : UInt32) (v : ChainKey) (m : MsgKeys) :
    s.receiverChainKey e = .panic ∧ s.hasMessageKeys e n = .panic ∧ (s.removeMessageKeys e n).1 = .panic ∧
      s.setMessageKeys e m = .panic ∧ s.setReceiverChainKey e v = .panic := by
  simp [SState.receiverChainKey, SState.hasMessageKeys, SState.removeMessageKeys, SState.setMessageKeys, SState.setReceiverChainKey, h]

/-- **C84** (what is missing, 2): asked for a number that is not there, `RemoveMessageKeys` hands out and forgets the key of another message: the oldest. -/
theorem C84_remove_other_false (s : SState) (e : Key32) (n : UInt32) (c : Chain) (k : MsgKeys) (ks : List MsgKeys) (hc : s.receiverChain e = some c)
    (hk : c.msgKeys = k :: ks) (hn : ∀ m ∈ c.msgKeys, m.index ≠ n) :
    (s.removeMessageKeys e n).1 = .ok k ∧ k.index ≠ n ∧ ∃ c', (s.removeMessageKeys e n).2.receiverChain e = some c' ∧ c'.msgKeys = ks := by
  have hi : c.msgKeys.findIdx? (fun m => m.index == n) = none := by
    rw [List.findIdx?_eq_none_iff]
    intro m hm
    simpa using hn m hm
  have hr : s.removeMessageKeys e n = (.ok k, s.modifyChain e (fun c => { c with msgKeys := c.msgKeys.eraseIdx 0 })) := by
    have h0 : c.msgKeys[0]? = some k := by rw [hk]; rfl
    simp only [SState.removeMessageKeys, hc, hi, Option.getD_none, h0]
  refine ⟨by rw [hr], hn k (by rw [hk]; exact List.mem_cons_self), { c with msgKeys := ks }, ?_, rfl⟩
  rw [hr]
  show (modifyFirst _ _ s.receiverChains).find? _ = _
  rw [find?_modifyFirst]
  · have : s.receiverChains.find? (fun c => c.pair.pub == e) = some c := hc
    rw [this]; simp [hk]
  · intro a ha; exact ha

/-- **C84** (sending side): `SenderChainKey` returns the chain key that `SetSenderChain` or `SetSenderChainKey` wrote last, which change nothing else
(the second keeps the ratchet key pair); before the first `SetSenderChain` both crash. -/
theorem C84_sending_side_partial (s : SState) (pair : KeyPair) (v w : ChainKey) :
    (s.setSenderChain pair v).senderChainKey = .ok v ∧ s.setSenderChain pair v = { s with senderChain := some ⟨pair, v, []⟩ } ∧
    (∃ s', (s.setSenderChain pair v).setSenderChainKey w = .ok s' ∧ s'.senderChainKey = .ok w ∧ s' = { s with senderChain := some ⟨pair, w, []⟩ }) ∧
    (s.senderChain = none → s.senderChainKey = .panic ∧ s.setSenderChainKey w = .panic) :=
  ⟨rfl, rfl, ⟨_, rfl, rfl, rfl⟩, fun h => by simp [SState.senderChainKey, SState.setSenderChainKey, h]⟩

/-- **C84** (base key): `SetSenderBaseKey` with the encoding of a public key stores that key. -/
theorem C84_base_key_partial (s : SState) (k : Key32) : s.setSenderBaseKey (serPub k) = .ok { s with senderBaseKey := some k } := by
  rw [SState.setSenderBaseKey, decodePoint_serPub k]

/-- **C84** (what is missing, 3): `SetSenderBaseKey` reports nothing when the bytes are no public key; it erases the key, after which the state cannot be
serialised (`Serialize` crashes). -/
theorem C84_base_key_erased_false (s s' : SState) (b : Bytes) (x : Err) (hb : decodePoint b = .err x) (h : s.setSenderBaseKey b = .ok s') :
    s'.senderBaseKey = none ∧ s'.toStruct = .panic := by
  rw [SState.setSenderBaseKey, hb] at h
  cases h
  refine ⟨rfl, ?_⟩
  unfold SState.toStruct
  cases s.localIdentity <;> cases s.remoteIdentity <;> cases s.rootKey <;> cases s.senderChain <;> rfl

/-- **C84** (what is missing, 4): `SetSenderBaseKey` with no bytes at all crashes instead of reporting an error. -/
theorem C84_base_key_empty_false (s : SState) : s.setSenderBaseKey [] = .panic := rfl

/-! Concrete cases: seven chains are added (the first two are dropped), a chain key is replaced, three keys are kept and the middle one is taken. -/
section
private def e (n : UInt8) : Key32 := sliceToArray 32 (List.replicate 32 n)
private def k (n : UInt32) : MsgKeys := ⟨[], [], [], n⟩
private def story : List (Op Key32 ChainKey MsgKeys) :=
  [.take (e 4) 8, .keep (e 4) (k 9), .keep (e 4) (k 8), .setChain (e 4) ⟨[9], 9⟩, .keep (e 4) (k 7),
    .add (e 7) ⟨[7], 0⟩, .add (e 6) ⟨[6], 0⟩, .add (e 5) ⟨[5], 0⟩, .add (e 4) ⟨[4], 0⟩, .add (e 3) ⟨[3], 0⟩, .add (e 2) ⟨[2], 0⟩, .add (e 1) ⟨[1], 0⟩]

example : Legal MsgKeys.index story ∧ present story = [e 7, e 6, e 5, e 4, e 3] ∧ lastChain (e 4) story = some ⟨[9], 9⟩ ∧
    kept MsgKeys.index (e 4) story = [k 7, k 9] := by
  refine ⟨⟨by decide, ⟨k 8, by decide, rfl⟩, by decide, by decide, by decide, by decide, by decide, by decide, by decide, by decide, by decide, by decide, by decide, trivial⟩, by decide, by decide, by decide⟩

example : ∃ s, SState.new.calls story = .ok s ∧ s.receiverChainKey (e 4) = .ok ⟨[9], 9⟩ ∧ s.hasMessageKeys (e 4) 8 = .ok false ∧
    s.hasMessageKeys (e 4) 9 = .ok true ∧ s.receiverChain (e 2) = none ∧ (s.removeMessageKeys (e 4) 8).1 = .ok (k 7) :=
  ⟨_, rfl, by decide, by decide, by decide, by decide, by decide⟩

example : ∃ x, decodePoint (6 :: List.replicate 32 1) = .err x := ⟨_, rfl⟩
end

/-- **C33** (look-up by id): `GetSenderKeyStateByID` returns the first state with the id, reports an error when there is none, and never crashes. -/
theorem C33_lookup_by_id (r : GRec) (id : UInt32) :
    (∀ s, r.byId id = .ok s ↔ ∃ pre post, r = pre ++ s :: post ∧ s.keyId = id ∧ ∀ x ∈ pre, x.keyId ≠ id) ∧
    (r.byId id = .err .noSenderKeyForId ↔ ∀ s ∈ r, s.keyId ≠ id) ∧ r.byId id ≠ .panic := by
  unfold GRec.byId
  cases hf : r.find? (fun s => s.keyId == id) with
  | none =>
    have h1 : ∀ s ∈ r, s.keyId ≠ id := fun s hs => by simpa using List.find?_eq_none.1 hf s hs
    refine ⟨fun s => ⟨fun h => (by cases h), ?_⟩, ⟨fun _ => h1, fun _ => rfl⟩, by simp⟩
    rintro ⟨pre, post, rfl, h2, -⟩
    exact absurd h2 (h1 s (by simp))
  | some a =>
    have ha : a.keyId = id := by simpa using List.find?_some hf
    refine ⟨fun s => ?_, ⟨fun h => (by cases h), fun h => absurd ha (h a (List.mem_of_find?_eq_some hf))⟩, by simp⟩
    obtain ⟨-, pre, post, hl, hpre⟩ := List.find?_eq_some_iff_append.1 hf
    have hpre : ∀ x ∈ pre, x.keyId ≠ id := fun x hx => by simpa using hpre x hx
    constructor
    · intro h; cases h; exact ⟨pre, post, hl, ha, hpre⟩
    · rintro ⟨pre', post', hl', hs, hpre'⟩
      have : r.find? (fun s => s.keyId == id) = some s := by
        rw [List.find?_eq_some_iff_append]
        exact ⟨by simpa using hs, pre', post', hl', fun x hx => by simpa using hpre' x hx⟩
      rw [hf] at this; cases this; rfl

end Verif

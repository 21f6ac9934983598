import Verif.Model.Session
import Verif.Proofs.Keys
import Verif.Spec.Window
/- The receiving chain refines the receive-window specification. -/
set_option linter.unusedSimpArgs false
namespace Verif

/-! ### Searching and mutating a list element -/

theorem find?_modifyFirst {α : Type} (p : α → Bool) (f : α → α) (l : List α) (hp : ∀ a, p a = true → p (f a) = true) :
    (modifyFirst p f l).find? p = (l.find? p).map f := by
  induction l with
  | nil => rfl
  | cons a l ih =>
    simp only [modifyFirst]
    split
    · rename_i h; simp [List.find?_cons, h, hp a h]
    · rename_i h; simp [List.find?_cons, h, ih]

theorem find?_modifyFirst_ne {α : Type} (p q : α → Bool) (f : α → α) (l : List α)
    (h : ∀ a, p a = true → q a = false ∧ q (f a) = false) :
    (modifyFirst p f l).find? q = l.find? q := by
  induction l with
  | nil => rfl
  | cons a l ih =>
    simp only [modifyFirst]
    split
    · rename_i hp; obtain ⟨h1, h2⟩ := h a hp; simp [List.find?_cons, h1, h2]
    · simp [List.find?_cons, ih]

theorem modifyFirst_modifyFirst {α : Type} (p : α → Bool) (f g : α → α) (l : List α)
    (hp : ∀ a, p a = true → p (g a) = true) :
    modifyFirst p f (modifyFirst p g l) = modifyFirst p (fun a => f (g a)) l := by
  induction l with
  | nil => rfl
  | cons a l ih =>
    simp only [modifyFirst]
    split
    · rename_i h; simp [modifyFirst, hp a h]
    · rename_i h; simp [modifyFirst, h, ih]

theorem modifyFirst_id {α : Type} (p : α → Bool) (f : α → α) (l : List α)
    (h : ∀ a, l.find? p = some a → f a = a) : modifyFirst p f l = l := by
  induction l with
  | nil => rfl
  | cons a l ih =>
    simp only [modifyFirst]
    split
    · rename_i hp; rw [h a (by simp [List.find?_cons, hp])]
    · rename_i hp
      rw [ih]
      intro b hb
      exact h b (by simp [List.find?_cons, hp, hb])

theorem modifyFirst_congr {α : Type} (p : α → Bool) (f g : α → α) (l : List α)
    (h : ∀ a, l.find? p = some a → f a = g a) : modifyFirst p f l = modifyFirst p g l := by
  induction l with
  | nil => rfl
  | cons a l ih =>
    simp only [modifyFirst]
    split
    · rename_i hp; rw [h a (by simp [List.find?_cons, hp])]
    · rename_i hp
      rw [ih]
      intro b hb
      exact h b (by simp [List.find?_cons, hp, hb])

theorem length_modifyFirst {α : Type} (p : α → Bool) (f : α → α) (l : List α) :
    (modifyFirst p f l).length = l.length := by
  induction l with
  | nil => rfl
  | cons a l ih => simp only [modifyFirst]; split <;> simp [ih]

theorem mem_modifyFirst {α : Type} {p : α → Bool} {f : α → α} {l : List α} {x : α} (h : x ∈ modifyFirst p f l) :
    x ∈ l ∨ ∃ a ∈ l, l.find? p = some a ∧ x = f a := by
  induction l with
  | nil => simp [modifyFirst] at h
  | cons a l ih =>
    simp only [modifyFirst] at h
    split at h
    · rename_i hp
      rcases List.mem_cons.1 h with rfl | h
      · exact .inr ⟨a, by simp, by simp [List.find?_cons, hp], rfl⟩
      · exact .inl (by simp [h])
    · rename_i hp
      rcases List.mem_cons.1 h with rfl | h
      · exact .inl (by simp)
      · rcases ih h with h | ⟨b, h1, h2, h3⟩
        · exact .inl (by simp [h])
        · exact .inr ⟨b, by simp [h1], by simp [List.find?_cons, hp, h2], h3⟩

theorem getElem?_findIdx? {α : Type} {p : α → Bool} {l : List α} {k : α} {i : Nat} (h : l.find? p = some k)
    (hi : l.findIdx? p = some i) : l[i]? = some k := by
  induction l generalizing i with
  | nil => simp at h
  | cons a l ih =>
    rw [List.findIdx?_cons] at hi
    rw [List.find?_cons] at h
    cases hp : p a with
    | true => simp [hp] at h hi; subst h hi; rfl
    | false =>
      simp only [hp] at h
      simp only [hp, Bool.false_eq_true, if_false, Option.map_eq_some_iff] at hi
      obtain ⟨j, hj, rfl⟩ := hi
      simpa using ih h hj

/-! ### Chain keys -/

/-- The chain key `n` steps after `ck`. -/
def ChainKey.iter (C : Crypto) : Nat → ChainKey → ChainKey
  | 0, ck => ck
  | n + 1, ck => (ChainKey.iter C n ck).next C

theorem ChainKey.iter_succ (C : Crypto) (n : Nat) (ck : ChainKey) :
    ck.iter C (n + 1) = (ck.next C).iter C n := by
  induction n with
  | zero => rfl
  | succ n ih => show (ck.iter C (n + 1)).next C = _; rw [ih]; rfl

theorem ChainKey.iter_add (C : Crypto) (m n : Nat) (ck : ChainKey) :
    ck.iter C (m + n) = (ck.iter C m).iter C n := by
  induction n with
  | zero => rfl
  | succ n ih => rw [← Nat.add_assoc]; show (ck.iter C (m + n)).next C = _; rw [ih]; rfl

theorem ChainKey.iter_index (C : Crypto) (n : Nat) (ck : ChainKey) :
    (ck.iter C n).index = ck.index + UInt32.ofNat n := by
  induction n with
  | zero => simp [ChainKey.iter]
  | succ n ih =>
    simp only [ChainKey.iter, next_index, ih]
    rw [UInt32.ofNat_add, ← UInt32.add_assoc]; rfl

/-! ### One chain in isolation -/

/-- Remembering a skipped key with the limit of 2000. -/
def capPush (l : List MsgKeys) (k : MsgKeys) : List MsgKeys :=
  let ks := l ++ [k]
  if maxMessageKeys < ks.length then ks.drop 1 else ks

theorem capPush_lastN (l : List MsgKeys) (k : MsgKeys) (h : l.length ≤ maxMessageKeys) :
    capPush l k = Window.lastN maxMessageKeys (l ++ [k]) := by
  simp only [capPush, Window.lastN, List.length_append, List.length_singleton]
  split
  · rw [show l.length + 1 - maxMessageKeys = 1 by omega]
  · rw [show l.length + 1 - maxMessageKeys = 0 by omega]; rfl

theorem lastN_length {α : Type} (n : Nat) (l : List α) : (Window.lastN n l).length ≤ n := by
  simp [Window.lastN]; omega

theorem lastN_of_le {α : Type} {n : Nat} {l : List α} (h : l.length ≤ n) : Window.lastN n l = l := by
  simp [Window.lastN, Nat.sub_eq_zero_of_le h]

theorem lastN_lastN_append {α : Type} (n : Nat) (l m : List α) :
    Window.lastN n (Window.lastN n l ++ m) = Window.lastN n (l ++ m) := by
  simp only [Window.lastN, List.length_append, List.length_drop]
  by_cases h : l.length ≤ n
  · rw [Nat.sub_eq_zero_of_le h]; simp
  · rw [show l.length - (l.length - n) + m.length - n = m.length by omega]
    rw [show l.length + m.length - n = (l.length - n) + m.length by omega]
    rw [← List.drop_drop, show (l ++ m).drop (l.length - n) = l.drop (l.length - n) ++ m from
      List.drop_append_of_le_length (by omega)]

theorem lastN_map {α β : Type} (f : α → β) (n : Nat) (l : List α) :
    (Window.lastN n l).map f = Window.lastN n (l.map f) := by
  simp [Window.lastN, List.map_drop]

/-- Skipped keys after `n` steps of the skip loop. -/
def pushSkipped (C : Crypto) : Nat → ChainKey → List MsgKeys → List MsgKeys
  | 0, _, l => l
  | n + 1, ck, l => pushSkipped C n (ck.next C) (capPush l (ck.msgKeys C))

theorem pushSkipped_eq (C : Crypto) (n : Nat) (ck : ChainKey) (l : List MsgKeys) (h : l.length ≤ maxMessageKeys) :
    pushSkipped C n ck l = Window.lastN maxMessageKeys (l ++ (List.range n).map (fun i => (ck.iter C i).msgKeys C)) := by
  induction n generalizing ck l with
  | zero => simp [pushSkipped, lastN_of_le h]
  | succ n ih =>
    rw [pushSkipped, capPush_lastN _ _ h, ih _ _ (lastN_length _ _), lastN_lastN_append, List.range_succ_eq_map]
    simp only [List.map_cons, List.map_map, List.append_assoc, List.singleton_append]
    congr 3
    apply List.map_congr_left
    intro i _
    simp [ChainKey.iter_succ]

/-- `getOrCreateMessageKeys` seen on the one chain it works on. -/
def Chain.recv (C : Crypto) (c : Chain) (counter : UInt32) : Res MsgKeys × Chain :=
  if counter < c.chainKey.index then
    match c.msgKeys.find? (fun k => k.index == counter) with
    | some k => (.ok k, { c with msgKeys := c.msgKeys.eraseP (fun k => k.index == counter) })
    | none => (.err .oldCounter, c)
  else if maxFutureMessages < counter - c.chainKey.index then (.err .tooFarFuture, c)
  else
    let n := (counter - c.chainKey.index).toNat
    let ck := c.chainKey.iter C n
    (.ok (ck.msgKeys C), { c with chainKey := ck.next C, msgKeys := pushSkipped C n c.chainKey c.msgKeys })

theorem receiverChain_modify {s : SState} {eph : Key32} {c : Chain} (h : s.receiverChain eph = some c)
    (f : Chain → Chain) (hf : ∀ a : Chain, (f a).pair = a.pair) :
    (s.modifyChain eph f).receiverChain eph = some (f c) := by
  simp only [SState.receiverChain, SState.modifyChain] at *
  rw [find?_modifyFirst _ _ _ (by intro a ha; simpa [hf a] using ha), h]; rfl

theorem modifyChain_modifyChain (s : SState) (eph : Key32) (f g : Chain → Chain) (hg : ∀ a : Chain, (g a).pair = a.pair) :
    (s.modifyChain eph g).modifyChain eph f = s.modifyChain eph (fun a => f (g a)) := by
  simp only [SState.modifyChain]
  rw [modifyFirst_modifyFirst _ _ _ _ (by intro a ha; simpa [hg a] using ha)]

theorem modifyChain_congr {s : SState} {eph : Key32} {c : Chain} (h : s.receiverChain eph = some c) (f g : Chain → Chain)
    (e : f c = g c) : s.modifyChain eph f = s.modifyChain eph g := by
  simp only [SState.modifyChain]
  rw [modifyFirst_congr]
  intro a ha
  simp only [SState.receiverChain] at h
  rw [h] at ha; cases ha; exact e

theorem modifyChain_self {s : SState} {eph : Key32} {c : Chain} (h : s.receiverChain eph = some c) :
    s.modifyChain eph (fun _ => c) = s := by
  simp only [SState.modifyChain]
  rw [modifyFirst_id]
  intro a ha
  simp only [SState.receiverChain] at h
  rw [h] at ha; cases ha; rfl

theorem skipLoop_eq (C : Crypto) (eph : Key32) (counter : UInt32) (n : Nat) (s : SState) (ck : ChainKey) (c : Chain)
    (h : s.receiverChain eph = some c) (hle : ck.index ≤ counter) (hn : n = (counter - ck.index).toNat) :
    skipLoop C eph counter n s ck =
      (.ok (ck.iter C n), s.modifyChain eph (fun _ => { c with msgKeys := pushSkipped C n ck c.msgKeys })) := by
  induction n generalizing s ck c with
  | zero =>
    simp only [skipLoop, ChainKey.iter, pushSkipped]
    rw [modifyChain_self h]
  | succ n ih =>
    have hsub : (counter - ck.index).toNat = counter.toNat - ck.index.toNat := by
      rw [UInt32.toNat_sub_of_le _ _ hle]
    have hle' : ck.index.toNat ≤ counter.toNat := hle
    have hlt : ck.index < counter := by
      rw [UInt32.lt_iff_toNat_lt]; omega
    have hb : counter.toNat < 2 ^ 32 := counter.toNat_lt
    have hnext : (ck.index + 1).toNat = ck.index.toNat + 1 := by
      rw [UInt32.toNat_add]; simp; omega
    simp only [skipLoop, if_pos hlt, SState.setMessageKeys, h]
    have hc' := receiverChain_modify h (·.addMsgKeys (ck.msgKeys C)) (by intro a; rfl)
    have hle2 : (ck.next C).index ≤ counter := by
      rw [UInt32.le_iff_toNat_le]; simp only [next_index]; omega
    rw [ih _ (ck.next C) _ hc' hle2 (by rw [UInt32.toNat_sub_of_le _ _ hle2]; simp only [next_index]; omega)]
    rw [ChainKey.iter_succ]
    congr 1
    rw [modifyChain_modifyChain _ _ _ _ (by intro a; rfl)]
    apply modifyChain_congr h
    rfl

/-- The state-level function is the chain-level one on the chain found for the ratchet key. -/
theorem getOrCreateMessageKeys_eq (C : Crypto) (s : SState) (eph : Key32) (c : Chain) (counter : UInt32)
    (h : s.receiverChain eph = some c) :
    getOrCreateMessageKeys C s eph c.chainKey counter =
      ((c.recv C counter).1, s.modifyChain eph (fun _ => (c.recv C counter).2)) := by
  unfold getOrCreateMessageKeys Chain.recv
  split
  · simp only [SState.hasMessageKeys, h]
    cases hf : c.msgKeys.find? (fun k => k.index == counter) with
    | none =>
      have : c.msgKeys.any (fun k => k.index == counter) = false := by
        rw [List.find?_eq_none] at hf
        simp only [List.any_eq_false]; exact hf
      rw [this]
      simp only
      rw [modifyChain_self h]
    | some k =>
      have hk := List.find?_some hf
      have hany : c.msgKeys.any (fun k => k.index == counter) = true := by
        simp only [List.any_eq_true]; exact ⟨k, List.mem_of_find?_eq_some hf, hk⟩
      rw [hany]
      simp only [SState.removeMessageKeys, h]
      have hidx : ∃ i, c.msgKeys.findIdx? (fun k => k.index == counter) = some i := by
        rw [← Option.isSome_iff_exists, List.findIdx?_isSome]; exact hany
      obtain ⟨i, hi⟩ := hidx
      have hget : c.msgKeys[i]? = some k := by
        exact getElem?_findIdx? hf hi
      simp only [hi, Option.getD_some, hget]
      congr 1
      apply modifyChain_congr h
      rw [List.eraseP_eq_eraseIdx, hi]
  · split
    · rw [modifyChain_self h]
    · rename_i h1 h2
      have hle : c.chainKey.index ≤ counter := UInt32.not_lt.1 h1
      rw [skipLoop_eq C eph counter _ s c.chainKey c h hle rfl]
      have hfc := h
      have hc' : (s.modifyChain eph (fun _ => { c with msgKeys := pushSkipped C (counter - c.chainKey.index).toNat c.chainKey c.msgKeys })).receiverChain eph = some { c with msgKeys := pushSkipped C (counter - c.chainKey.index).toNat c.chainKey c.msgKeys } := by
        rw [modifyChain_congr h (fun _ => { c with msgKeys := pushSkipped C (counter - c.chainKey.index).toNat c.chainKey c.msgKeys })
          (fun a => { a with msgKeys := pushSkipped C (counter - c.chainKey.index).toNat c.chainKey c.msgKeys }) rfl]
        exact receiverChain_modify h _ (by intro a; rfl)
      simp only [SState.setReceiverChainKey, hc']
      congr 1
      rw [modifyChain_congr h (fun _ => { c with msgKeys := pushSkipped C (counter - c.chainKey.index).toNat c.chainKey c.msgKeys })
          (fun a => { a with msgKeys := pushSkipped C (counter - c.chainKey.index).toNat c.chainKey c.msgKeys }) rfl]
      rw [modifyChain_modifyChain _ _ _ _ (by intro a; rfl)]
      exact modifyChain_congr h _ _ rfl

end Verif

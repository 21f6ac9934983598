import Verif.Proofs.States
/- Structure of `decryptWithRecord`. -/
set_option linter.unusedSimpArgs false
namespace Verif

/-- The fields of a state that decrypting never changes. -/
structure Kept (s s' : SState) : Prop where
  loc : s'.localIdentity = s.localIdentity
  remote : s'.remoteIdentity = s.remoteIdentity
  version : s'.version = s.version
  base : s'.senderBaseKey = s.senderBaseKey
  lreg : s'.localRegistrationId = s.localRegistrationId
  rreg : s'.remoteRegistrationId = s.remoteRegistrationId
  refresh : s'.needsRefresh = s.needsRefresh
  exchange : s'.pendingKeyExchange = s.pendingKeyExchange

theorem Kept.refl (s : SState) : Kept s s := ⟨rfl, rfl, rfl, rfl, rfl, rfl, rfl, rfl⟩
theorem Kept.trans {a b c : SState} (h : Kept a b) (h' : Kept b c) : Kept a c :=
  ⟨h'.loc.trans h.loc, h'.remote.trans h.remote, h'.version.trans h.version, h'.base.trans h.base, h'.lreg.trans h.lreg,
   h'.rreg.trans h.rreg, h'.refresh.trans h.refresh, h'.exchange.trans h.exchange⟩

theorem decryptWithState_kept (E : Env) (d : Option Key32) (s : SState) (m : SignalMsg) :
    Kept s (decryptWithState E d s m).2.1 := by
  rcases decryptWithState_cases E d s m with ⟨res, d', he, -, -⟩ | ⟨s1, c, d', hc, h1, -, hs1, he⟩
  · rw [he]; exact Kept.refl s
  · have hk : Kept s s1 := by
      rcases hs1 with ⟨rfl, -⟩ | ⟨-, -, root, sc, p, r, -, -, -, -, rfl⟩
      · exact Kept.refl _
      · exact ⟨rfl, rfl, rfl, rfl, rfl, rfl, rfl, rfl⟩
    rw [he]
    split
    · refine hk.trans ?_
      generalize Res.isOk _ = b
      cases b <;> exact ⟨rfl, rfl, rfl, rfl, rfl, rfl, rfl, rfl⟩
    · exact hk
    · exact hk

/-- An unsuccessful decryption keeps the pending prekey. -/
theorem decryptWithState_pending (E : Env) (d : Option Key32) (s : SState) (m : SignalMsg) :
    (decryptWithState E d s m).2.1.pendingPreKey =
      if (decryptWithState E d s m).1.isOk then none else s.pendingPreKey := by
  rcases decryptWithState_cases E d s m with ⟨res, d', he, hno, -⟩ | ⟨s1, c, d', hc, h1, -, hs1, he⟩
  · rw [he]; simp [hno]
  · have hk : s1.pendingPreKey = s.pendingPreKey := by
      rcases hs1 with ⟨rfl, -⟩ | ⟨-, -, root, sc, p, r, -, -, -, -, rfl⟩ <;> rfl
    rw [he]
    split
    · simp only
      generalize Res.isOk _ = b
      cases b
      · exact hk
      · rfl
    · exact hk
    · exact hk

/-- The record and random position after the states at the given addresses have failed. -/
def afterFail (E : Env) (m : SignalMsg) : List Nat → Rec → Nat → Rec × Nat
  | [], r, pos => (r, pos)
  | a :: l, r, pos =>
    let x := decryptWithState E (E.rng pos) (r.heap a) m
    afterFail E m l (r.set a x.2.1) (bump pos x.2.2)

/-- All of them failed with an error (no panic). -/
def AllFail (E : Env) (m : SignalMsg) : List Nat → Rec → Nat → Prop
  | [], _, _ => True
  | a :: l, r, pos =>
    (∃ e, (decryptWithState E (E.rng pos) (r.heap a) m).1 = .err e) ∧
    AllFail E m l (r.set a (decryptWithState E (E.rng pos) (r.heap a) m).2.1)
      (bump pos (decryptWithState E (E.rng pos) (r.heap a) m).2.2)

@[simp] theorem Rec.set_cur (r : Rec) (a : Nat) (s : SState) : (r.set a s).cur = r.cur := rfl
@[simp] theorem Rec.set_prev (r : Rec) (a : Nat) (s : SState) : (r.set a s).prev = r.prev := rfl
@[simp] theorem Rec.set_next (r : Rec) (a : Nat) (s : SState) : (r.set a s).next = r.next := rfl
@[simp] theorem Rec.set_fresh (r : Rec) (a : Nat) (s : SState) : (r.set a s).fresh = r.fresh := rfl
theorem Rec.set_heap (r : Rec) (a b : Nat) (s : SState) : (r.set a s).heap b = if b = a then s else r.heap b := rfl
@[simp] theorem Rec.set_heap_same (r : Rec) (a : Nat) (s : SState) : (r.set a s).heap a = s := by simp [Rec.set_heap]

theorem afterFail_frame (E : Env) (m : SignalMsg) (l : List Nat) (r : Rec) (pos : Nat) :
    (afterFail E m l r pos).1.cur = r.cur ∧ (afterFail E m l r pos).1.prev = r.prev ∧
    (afterFail E m l r pos).1.next = r.next ∧ (afterFail E m l r pos).1.fresh = r.fresh ∧
    (∀ b, Kept (r.heap b) ((afterFail E m l r pos).1.heap b)) ∧
    (∀ b, b ∉ l → (afterFail E m l r pos).1.heap b = r.heap b) := by
  induction l generalizing r pos with
  | nil => exact ⟨rfl, rfl, rfl, rfl, fun b => Kept.refl _, fun _ _ => rfl⟩
  | cons a l ih =>
    simp only [afterFail]
    obtain ⟨h1, h2, h3, h4, h5, h6⟩ := ih (r.set a (decryptWithState E (E.rng pos) (r.heap a) m).2.1)
      (bump pos (decryptWithState E (E.rng pos) (r.heap a) m).2.2)
    refine ⟨h1, h2, h3, h4, fun b => ?_, fun b hb => ?_⟩
    · refine Kept.trans ?_ (h5 b)
      rw [Rec.set_heap]
      split
      · rename_i h; subst h; exact decryptWithState_kept _ _ _ _
      · exact Kept.refl _
    · simp only [List.mem_cons, not_or] at hb
      rw [h6 b hb.2, Rec.set_heap, if_neg hb.1]

/-- The record's archived list after the shared slice was shifted, then the promotion. -/
def promoteFound (r : Rec) (i a : Nat) (s' : SState) : Rec :=
  Rec.promote { (r.set a s') with prev := r.prev.eraseIdx i ++ r.prev.drop (r.prev.length - 1) } a

/-- All ways trying the archived states can end. -/
theorem tryPrevious_cases (E : Env) (m : SignalMsg) (l : List Nat) (i : Nat) (r : Rec) (pos : Nat) :
    (AllFail E m l r pos ∧
      tryPrevious E m l i r pos = (.err .noValidSessions, (afterFail E m l r pos).1, (afterFail E m l r pos).2)) ∨
    (∃ pre a post s' d r0 pos0, l = pre ++ a :: post ∧ AllFail E m pre r pos ∧ (r0, pos0) = afterFail E m pre r pos ∧
      ((∃ x, decryptWithState E (E.rng pos0) (r0.heap a) m = (.ok x, s', d) ∧
        tryPrevious E m l i r pos = (.ok x, promoteFound r0 (i + pre.length) a s', bump pos0 d)) ∨
       (decryptWithState E (E.rng pos0) (r0.heap a) m = (.panic, s', d) ∧
        tryPrevious E m l i r pos = (.panic, r0.set a s', bump pos0 d)))) := by
  induction l generalizing i r pos with
  | nil => exact .inl ⟨trivial, rfl⟩
  | cons a l ih =>
    cases hd : decryptWithState E (E.rng pos) (r.heap a) m with
    | mk res sd =>
      obtain ⟨s', d⟩ := sd
      cases res with
      | ok x =>
        right
        refine ⟨[], a, l, s', d, r, pos, rfl, trivial, rfl, .inl ⟨x, hd, ?_⟩⟩
        simp only [tryPrevious, hd]
        rfl
      | panic =>
        right
        refine ⟨[], a, l, s', d, r, pos, rfl, trivial, rfl, .inr ⟨hd, ?_⟩⟩
        simp only [tryPrevious, hd]
      | err e =>
        have htp : tryPrevious E m (a :: l) i r pos = tryPrevious E m l (i + 1) (r.set a s') (bump pos d) := by
          simp only [tryPrevious, hd]
        rcases ih (i + 1) (r.set a s') (bump pos d) with ⟨h1, h2⟩ | ⟨pre, b, post, s2, d2, r0, pos0, rfl, h1, h2, h3⟩
        · left
          refine ⟨⟨⟨e, by rw [hd]⟩, by rw [hd]; exact h1⟩, ?_⟩
          rw [htp, h2]
          simp only [afterFail, hd]
        · right
          refine ⟨a :: pre, b, post, s2, d2, r0, pos0, rfl, ⟨⟨e, by rw [hd]⟩, by rw [hd]; exact h1⟩, ?_, ?_⟩
          · rw [h2]; simp only [afterFail, hd]
          · rw [htp]
            rcases h3 with ⟨x, h3, h4⟩ | ⟨h3, h4⟩
            · refine .inl ⟨x, h3, ?_⟩
              rw [h4, List.length_cons]
              congr 2
              congr 1
              omega
            · exact .inr ⟨h3, h4⟩

/-- All ways decrypting with a record can end. -/
theorem decryptWithRecord_cases (E : Env) (pos : Nat) (r : Rec) (m : SignalMsg) :
    -- the current state decrypts
    (∃ x s' d, decryptWithState E (E.rng pos) r.state m = (.ok x, s', d) ∧
      decryptWithRecord E pos r m = (.ok x, r.set r.cur s', bump pos d)) ∨
    -- an archived state decrypts after the current one and the archived ones before it failed
    (∃ pre a post x s' d r0 pos0, r.prev = pre ++ a :: post ∧ AllFail E m (r.cur :: pre) r pos ∧
      (r0, pos0) = afterFail E m (r.cur :: pre) r pos ∧
      decryptWithState E (E.rng pos0) (r0.heap a) m = (.ok x, s', d) ∧
      decryptWithRecord E pos r m = (.ok x, promoteFound r0 pre.length a s', bump pos0 d)) ∨
    -- all fail
    (AllFail E m (r.cur :: r.prev) r pos ∧
      decryptWithRecord E pos r m = (.err .noValidSessions, (afterFail E m (r.cur :: r.prev) r pos).1,
        (afterFail E m (r.cur :: r.prev) r pos).2)) ∨
    -- a state panics
    (∃ r' pos', decryptWithRecord E pos r m = (.panic, r', pos') ∧ ∃ l, (∃ t, r.cur :: r.prev = l ++ t) ∧
        r' = (afterFail E m l r pos).1) := by
  unfold decryptWithRecord Rec.state
  cases hd : decryptWithState E (E.rng pos) (r.heap r.cur) m with
  | mk res sd =>
    obtain ⟨s', d⟩ := sd
    cases res with
    | ok x => exact .inl ⟨x, s', d, rfl, rfl⟩
    | panic =>
      refine .inr (.inr (.inr ⟨_, _, rfl, [r.cur], ⟨r.prev, rfl⟩, ?_⟩))
      simp [afterFail, hd]
    | err e =>
      simp only
      rcases tryPrevious_cases E m r.prev 0 (r.set r.cur s') (bump pos d) with
        ⟨h1, h2⟩ | ⟨pre, a, post, s2, d2, r0, pos0, h0, h1, h2, ⟨x, h3, h4⟩ | ⟨h3, h4⟩⟩
      · refine .inr (.inr (.inl ⟨⟨⟨e, by rw [hd]⟩, by rw [hd]; exact h1⟩, ?_⟩))
        rw [h2]
        simp only [afterFail, hd]
      · refine .inr (.inl ⟨pre, a, post, x, s2, d2, r0, pos0, h0, ⟨⟨e, by rw [hd]⟩, by rw [hd]; exact h1⟩, ?_, h3, ?_⟩)
        · rw [h2]; simp only [afterFail, hd]
        · rw [h4]; simp
      · refine .inr (.inr (.inr ⟨_, _, h4, r.cur :: pre ++ [a], ⟨post, by simp [h0]⟩, ?_⟩))
        have : ∀ (l : List Nat) (r : Rec) (pos : Nat), (afterFail E m (l ++ [a]) r pos).1 =
            (afterFail E m l r pos).1.set a (decryptWithState E (E.rng (afterFail E m l r pos).2)
              ((afterFail E m l r pos).1.heap a) m).2.1 := by
          intro l
          induction l with
          | nil => intro r pos; rfl
          | cons b l ih => intro r pos; simp only [List.cons_append, afterFail]; rw [ih]
        rw [this]
        have e0 : afterFail E m (r.cur :: pre) r pos = (r0, pos0) := by rw [h2]; simp only [afterFail, hd]
        rw [e0]
        simp only
        rw [h3]

@[simp] theorem promoteFound_cur (r : Rec) (i a : Nat) (s' : SState) : (promoteFound r i a s').cur = a := rfl
@[simp] theorem promoteFound_state (r : Rec) (i a : Nat) (s' : SState) : (promoteFound r i a s').state = s' := by
  simp [promoteFound, Rec.promote, Rec.state, Rec.set]

/-- A successful decryption was made by one of the record's states (as it was, up to changes by
failed attempts when several entries share one object), which is afterwards the current one. -/
theorem decryptWithRecord_ok {E : Env} {pos : Nat} {r r' : Rec} {m : SignalMsg} {x : Bytes × MsgKeys} {pos' : Nat}
    (h : decryptWithRecord E pos r m = (.ok x, r', pos')) :
    ∃ a s d s' b, (a = r.cur ∨ a ∈ r.prev) ∧ Kept (r.heap a) s ∧ decryptWithState E d s m = (.ok x, s', b) ∧ r'.state = s' ∧
      r'.cur = a ∧ ((r.cur :: r.prev).Nodup → s = r.heap a) := by
  rcases decryptWithRecord_cases E pos r m with ⟨x', s', d, h1, h2⟩ | ⟨pre, a, post, x', s', d, r0, pos0, h0, h1, h2, h3, h4⟩ |
    ⟨-, h2⟩ | ⟨r', pos', h2, -⟩
  · rw [h2] at h; cases h
    exact ⟨r.cur, r.state, _, s', d, .inl rfl, Kept.refl _, h1, by simp [Rec.state], rfl, fun _ => rfl⟩
  · rw [h4] at h; cases h
    have hf := afterFail_frame E m (r.cur :: pre) r pos
    rw [← h2] at hf
    refine ⟨a, r0.heap a, _, s', d, .inr (by simp [h0]), hf.2.2.2.2.1 a, h3, by simp, rfl, fun hn => hf.2.2.2.2.2 a ?_⟩
    rw [h0] at hn
    intro hm
    rcases List.mem_cons.1 hm with rfl | hm
    · simp at hn
    · rw [List.nodup_cons, List.nodup_append] at hn
      exact hn.2.2.2 a hm a (by simp) rfl
  · rw [h2] at h; simp at h
  · rw [h2] at h; simp at h

end Verif

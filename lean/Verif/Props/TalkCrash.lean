import Verif.Props.Crowd
import Verif.Model.CrashWorld
/-
C81: a conversation goes on after crashes.
-/
set_option linter.unusedSimpArgs false
namespace Verif
open Talk (Side Party Conv Note Event Outcome)

/-! ### The store operations of a call -/

/-- The order of the store operations of a call for address `a`. -/
inductive Shape (a : Addr) : List Effect → Prop
  | none : Shape a []
  | save (k) : Shape a [.saveIdentity a k]
  | store (k r) : Shape a [.saveIdentity a k, .storeSession a r]
  | remove (k r id) : Shape a [.saveIdentity a k, .storeSession a r, .removePreKey id]

theorem encryptTrace_shape (E : Env) (st : Store) (a : Addr) (t : Bytes) : Shape a (st.encryptTrace E a t).2 := by
  unfold Store.encryptTrace
  cases st.load a with
  | err e => exact .none
  | panic => exact .none
  | ok r =>
    simp only [encryptRec]
    split
    · exact .store _ _
    · exact .none
    · exact .none

theorem decryptTrace_shape (E : Env) (st : Store) (pos : Nat) (a : Addr) (m : SignalMsg) : Shape a (st.decryptTrace E pos a m).2.2 := by
  unfold Store.decryptTrace
  split
  · exact .none
  · cases st.load a with
    | err e => exact .none
    | panic => exact .none
    | ok r =>
      simp only [decryptRec]
      split
      · exact .store _ _
      · exact .none
      · exact .none

theorem decryptPreKeyTrace_shape (E : Env) (st : Store) (pos : Nat) (a : Addr) (m : PreKeyMsg) : Shape a (st.decryptPreKeyTrace E pos a m).2.2 := by
  unfold Store.decryptPreKeyTrace
  cases st.load a with
  | err e => exact .none
  | panic => exact .none
  | ok r =>
    simp only
    have heff : ∀ id r1 eff, process E st.identities st.preKeys st.signedPreKeys a r m = (.ok id, r1, eff) → ∃ k, eff = [.saveIdentity a k] := by
      intro id r1 eff h
      unfold process at h
      split at h
      · cases h
      · split at h
        · cases h
        · cases h
        · cases h; exact ⟨_, rfl⟩
    have hno : ∀ res r1 eff, process E st.identities st.preKeys st.signedPreKeys a r m = (res, r1, eff) → (∀ id, res ≠ .ok id) → eff = [] := by
      intro res r1 eff h hr
      unfold process at h
      split at h
      · cases h; rfl
      · split at h
        · cases h; rfl
        · cases h; rfl
        · cases h; exact absurd rfl (hr _)
    unfold decryptPreKeyRec
    cases hp : process E st.identities st.preKeys st.signedPreKeys a r m with
    | mk res x =>
      obtain ⟨r1, eff⟩ := x
      cases res with
      | err e => rw [hno _ _ _ hp (by simp)]; exact .none
      | panic => rw [hno _ _ _ hp (by simp)]; exact .none
      | ok id =>
        obtain ⟨k, rfl⟩ := heff _ _ _ hp
        simp only
        cases hd : decryptWithRecord E pos r1 m.message with
        | mk res2 y =>
          obtain ⟨r2, pos'⟩ := y
          cases res2 with
          | err e => exact .save k
          | panic => exact .save k
          | ok x =>
            simp only
            cases id with
            | none => exact .store k r2
            | some o =>
              simp only
              split
              · exact .store k r2
              · exact .remove k r2 _

theorem Node.ops_shape (E : Env) (a : Addr) (n : Node) (p : Packet) : Shape a (n.ops E a p) := by
  cases p with
  | signal b =>
    simp only [Node.ops]
    split
    · exact decryptTrace_shape ..
    · exact .none
  | preKey b =>
    simp only [Node.ops]
    split
    · exact decryptPreKeyTrace_shape ..
    · exact .none

/-- Cut off before `StoreSession`: at most the identity is saved. -/
theorem cut_undone {a : Addr} {ops : List Effect} (h : Shape a ops) (st : Store) (k : Nat) (hs : (ops.take k).any Effect.isStore = false) :
    (st.applyAll (ops.take k)).1 = st ∨
    ∃ key, (st.applyAll (ops.take k)).1 = { st with identities := upd st.identities a key } ∧ (st.applyAll ops).1.identities = upd st.identities a key := by
  have hstore : ∀ (s1 : Store) (r : Rec) (l : List Effect), (∀ e ∈ l, ∃ id, e = .removePreKey id) → (s1.applyAll (.storeSession a r :: l)).1.identities = s1.identities := by
    intro s1 r l hl
    have hrm : ∀ (l : List Effect) (s : Store), (∀ e ∈ l, ∃ id, e = .removePreKey id) → (s.applyAll l).1.identities = s.identities := by
      intro l
      induction l with
      | nil => intro s _; rfl
      | cons e l ih =>
        intro s hl
        obtain ⟨id, rfl⟩ := hl e (List.mem_cons_self ..)
        simp only [Store.applyAll, Store.apply]
        exact ih _ fun e he => hl e (List.mem_cons_of_mem _ he)
    simp only [Store.applyAll, Store.apply]
    cases r.toStruct with
    | ok s => exact hrm l _ hl
    | err e => rfl
    | panic => rfl
  cases h with
  | none => left; simp [Store.applyAll]
  | save key =>
    match k with
    | 0 => left; rfl
    | k + 1 => right; exact ⟨key, by simp [Store.applyAll, Store.apply], rfl⟩
  | store key r =>
    match k with
    | 0 => left; rfl
    | 1 =>
      right
      refine ⟨key, rfl, ?_⟩
      rw [Store.applyAll]
      exact hstore _ r [] (by simp)
    | k + 2 => simp [Effect.isStore] at hs
  | remove key r id =>
    match k with
    | 0 => left; rfl
    | 1 =>
      right
      refine ⟨key, rfl, ?_⟩
      rw [Store.applyAll]
      exact hstore _ r [.removePreKey id] (by simp)
    | k + 2 => simp [Effect.isStore] at hs

/-- Cut off after `StoreSession`: at most the prekey is still there. -/
theorem cut_done {a : Addr} {ops : List Effect} (h : Shape a ops) (st : Store) (k : Nat) (hs : (ops.take k).any Effect.isStore = true) :
    (st.applyAll (ops.take k)).1 = (st.applyAll ops).1 ∨
    ((st.applyAll (ops.take k)).1.sessions = (st.applyAll ops).1.sessions ∧ (st.applyAll (ops.take k)).1.identities = (st.applyAll ops).1.identities ∧
      (st.applyAll (ops.take k)).1.signedPreKeys = (st.applyAll ops).1.signedPreKeys ∧ (st.applyAll ops).1.sessions a ≠ none) := by
  cases h with
  | none => simp at hs
  | save key => cases k <;> simp [Effect.isStore] at hs
  | store key r =>
    match k with
    | 0 => simp at hs
    | 1 => simp [Effect.isStore] at hs
    | k + 2 => left; simp
  | remove key r id =>
    match k with
    | 0 => simp at hs
    | 1 => simp [Effect.isStore] at hs
    | 2 =>
      simp only [List.take, Store.applyAll, Store.apply]
      cases r.toStruct with
      | ok s => right; simp [Store.applyAll, upd]
      | err e => left; rfl
      | panic => left; rfl
    | k + 3 => left; simp

theorem Node.hear_st (E : Env) (a : Addr) (n : Node) (p : Packet) : (n.hear E a p).2.st = (n.st.applyAll (n.ops E a p)).1 := by
  cases p with
  | signal b =>
    simp only [Node.hear, Node.ops]
    cases newSignalMessageFromBytes E.S b with
    | ok m => simp only [Store.decrypt, finish_snd]
    | err e => rfl
    | panic => rfl
  | preKey b =>
    simp only [Node.hear, Node.ops]
    cases newPreKeyMessageFromBytes E.P E.S b with
    | ok m => simp only [Store.decryptPreKey, finish_snd]
    | err e => rfl
    | panic => rfl

theorem Node.say_st (E : Env) (a : Addr) (n : Node) (t : Bytes) : (n.say E a t).2 = ⟨(n.st.applyAll (n.st.encryptTrace E a t).2).1, n.pos⟩ := by
  simp only [Node.say, Store.encrypt]
  rw [← finish_snd n.st (n.st.encryptTrace E a t).1]
  cases h : finish n.st (n.st.encryptTrace E a t).1 (n.st.encryptTrace E a t).2 with
  | mk res s => cases res <;> rfl

theorem Node.hear_pos {E : Env} {a : Addr} {n : Node} {p : Packet} (hprev : ∀ r, n.st.load a = .ok r → r.prev = []) :
    n.pos ≤ ((n.hear E a p).2).pos ∧ ((n.hear E a p).2).pos ≤ n.pos + 2 := by
  cases p with
  | signal b =>
    simp only [Node.hear]
    cases hp : newSignalMessageFromBytes E.S b with
    | err e => exact ⟨Nat.le_refl _, Nat.le_add_right ..⟩
    | panic => exact ⟨Nat.le_refl _, Nat.le_add_right ..⟩
    | ok m =>
      show n.pos ≤ (n.st.decryptTrace E n.pos a m).2.1 ∧ (n.st.decryptTrace E n.pos a m).2.1 ≤ n.pos + 2
      unfold Store.decryptTrace
      split
      · simp
      · cases hl : n.st.load a with
        | err e => simp
        | panic => simp
        | ok r =>
          simp only
          have := decryptRec_pos E n.pos a r m
          rw [hprev r hl] at this
          exact ⟨this.1, Nat.le_succ_of_le this.2⟩
  | preKey b =>
    simp only [Node.hear]
    cases hp : newPreKeyMessageFromBytes E.P E.S b with
    | err e => exact ⟨Nat.le_refl _, Nat.le_add_right ..⟩
    | panic => exact ⟨Nat.le_refl _, Nat.le_add_right ..⟩
    | ok m =>
      show n.pos ≤ (n.st.decryptPreKeyTrace E n.pos a m).2.1 ∧ (n.st.decryptPreKeyTrace E n.pos a m).2.1 ≤ n.pos + 2
      unfold Store.decryptPreKeyTrace
      cases hl : n.st.load a with
      | err e => simp
      | panic => simp
      | ok r =>
        simp only
        have := decryptPreKeyRec_pos E n.st.identities n.st.preKeys n.st.signedPreKeys n.pos a r m
        rw [hprev r hl] at this
        exact ⟨this.1, this.2⟩

/-! ### The invariant -/

theorem Inv.prev_nil {X : Setup} (hcl : X.clean) {w : World} {c : Conv} {es : Nat → Key32} {left : Nat} (h : Inv X w c es left) (s : Side) :
    ∀ r, (w.node s).st.load (X.addr s.peer) = .ok r → r.prev = [] := by
  obtain ⟨st0, -, hb0⟩ := h.party s
  intro r hr
  rcases hb0 with ⟨ps, hb, hps, -⟩ | ⟨hs, -, -, hb, -⟩
  · rw [hb.load, hps hcl] at hr
    cases hr; rfl
  · subst hs
    simp only [Side.peer, Store.load, hb hcl, Res.ok.injEq] at hr
    rw [← hr]; rfl

theorem All2.length_eq {α β : Type} {R : α → β → Prop} {l : List α} {m : List β} (h : All2 R l m) : l.length = m.length := by
  induction h with
  | nil => rfl
  | cons _ _ ih => simp [ih]

theorem All2.snoc_inv {α β : Type} {R : α → β → Prop} : ∀ {l : List α} {m : List β} {a : α} {b : β}, All2 R (l ++ [a]) (m ++ [b]) → All2 R l m := by
  intro l
  induction l with
  | nil =>
    intro m a b h
    cases m with
    | nil => exact .nil
    | cons x m => have := h.length_eq; simp at this
  | cons y l ih =>
    intro m a b h
    cases m with
    | nil => have := h.length_eq; simp at this
    | cons x m =>
      have key : ∀ l' m', All2 R (y :: l') (x :: m') → R y x ∧ All2 R l' m' := by
        intro l' m' h
        cases h with
        | cons h1 h2 => exact ⟨h1, h2⟩
      obtain ⟨h1, h2⟩ := key _ _ h
      exact .cons h1 (ih h2)

theorem All2.mono {α β : Type} {R R' : α → β → Prop} {l : List α} {m : List β} (h : All2 R l m) (hr : ∀ a b, R a b → R' a b) : All2 R' l m := by
  induction h with
  | nil => exact .nil
  | cons h1 _ ih => exact .cons (hr _ _ h1) ih

/-- Forgetting the last message of the wire. -/
theorem Inv.dropLast {X : Setup} {node : Side → Node} {wire : List (Side × Packet)} {x : Side × Packet} {c : Conv} {notes : List Note} {y : Note} {es : Nat → Key32} {left : Nat}
    (h : Inv X ⟨node, wire ++ [x]⟩ c es left) (hn : c.notes = notes ++ [y]) : Inv X ⟨node, wire⟩ { c with notes := notes } es left := by
  have hp : ∀ s, ({ c with notes := notes } : Conv).party s = c.party s := by intro s; cases s <;> rfl
  have hw := h.wire
  rw [hn] at hw
  have hw' : All2 (PacketFor X es c) wire notes := hw.snoc_inv
  refine ⟨?_, fun s => by rw [hp]; exact h.party s, fun s => by rw [hp, hp]; exact h.near s, fun s => by rw [hp]; exact h.parity s, fun s => by rw [hp]; exact h.keys s,
    fun s => by rw [hp]; exact h.dist s, fun s => by rw [hp]; exact h.room s, h.spk, h.ident⟩
  show All2 _ wire notes
  exact hw'.mono fun _ _ h1 => h1.congr (Nat.le_of_eq (by rw [hp])) fun _ _ => rfl

/-- After a call that was cut off: `full` is the world if the call had been completed. -/
theorem Inv.cut {X : Setup} (hcl : X.clean) {w : World} {wire : List (Side × Packet)} {c c' : Conv} {es es' : Nat → Key32} {left : Nat} (h : Inv X w c es (left + 2)) (s : Side)
    {ops : List Effect} (hsh : Shape (X.addr s.peer) ops) {pos : Nat} (hpos : (w.node s).pos ≤ pos ∧ pos ≤ (w.node s).pos + 2)
    (hfull : Inv X ⟨upd w.node s ⟨((w.node s).st.applyAll ops).1, pos⟩, wire⟩ c' es' left) (k : Nat) :
    ((ops.take k).any Effect.isStore = false → Inv X ⟨upd w.node s ((w.node s).cut ops pos k), w.wire⟩ c es left) ∧
    ((ops.take k).any Effect.isStore = true → Inv X ⟨upd w.node s ((w.node s).cut ops pos k), wire⟩ c' es' left) := by
  constructor
  · intro hs
    refine h.untouched s hpos ?_ ?_
    · intro st hb
      rcases cut_undone hsh (w.node s).st k hs with h3 | ⟨key, h3, -⟩
      · simp only [Backed, Node.cut, h3] at hb ⊢; exact hb
      · simp only [Backed, Node.cut, h3] at hb ⊢
        rcases hb with ⟨ps, q1, q2⟩ | q
        · exact .inl ⟨ps, q1.saveIdentity _, q2⟩
        · exact .inr q
    · rintro rfl
      rcases cut_undone hsh (w.node .bob).st k hs with h3 | ⟨key, h3, h4⟩
      · simp only [Node.cut, h3]; exact ⟨h.spk, h.ident⟩
      · have hi := hfull.ident
        simp only [upd, if_true, h4] at hi
        simp only [Node.cut, h3]
        refine ⟨h.spk, ?_⟩
        simpa [upd] using hi
  · intro hs
    have hnode : ∀ n', upd (upd w.node s ⟨((w.node s).st.applyAll ops).1, pos⟩) s n' = upd w.node s n' := by
      intro n'; funext t; simp only [upd]; split <;> rfl
    rw [← hnode]
    refine Inv.untouched (m := 0) hfull s ?_ ?_ ?_
    · simp [upd, Node.cut]
    · intro st hb
      rcases cut_done hsh (w.node s).st k hs with h3 | ⟨h3, h4, h5, h6⟩
      · simp only [upd, if_true, Backed, Node.cut, h3] at hb ⊢; exact hb
      · simp only [upd, if_true, Backed, Node.cut] at hb ⊢
        rcases hb with ⟨ps, q1, q2⟩ | ⟨rfl, -, -, q, -⟩
        · refine .inl ⟨ps, ?_, q2⟩
          exact ⟨by rw [← q1.load]; simp only [Store.load, h3], q1.init, q1.inits, q1.version⟩
        · exact absurd (q hcl) h6
    · rintro rfl
      have hi := hfull.ident
      have hsp := hfull.spk
      rcases cut_done hsh (w.node .bob).st k hs with h3 | ⟨h3, h4, h5, h6⟩
      · simp only [upd, if_true, Node.cut, h3] at hi hsp ⊢; exact ⟨hsp, hi⟩
      · simp only [upd, if_true, Node.cut, h4, h5] at hi hsp ⊢; exact ⟨hsp, hi⟩
/-- **C81 (the step).** -/
theorem Inv.lose {X : Setup} (hX : X.Ok) (hcl : X.clean) {w : World} {c c' : Conv} {es : Nat → Key32} {left : Nat} (h : Inv X w c es (left + 2)) (e : Event) (k : Nat)
    (ht : ∀ s t, e = .say s t → t.length < 2 ^ 63) {b : Bool} {w' : World} (hx : w.xstep X.env X.addr (.crash e k) = (.crashed b, w')) (hc : c.lose e b = some c') :
    ∃ es', Inv X w' c' es' left := by
  have hw := Inv.weaken (l' := left + 1) h (by omega)
  cases e with
  | say s text =>
    by_cases h0 : (c.party s).turn = 0
    · simp [Talk.Conv.lose, Talk.Conv.step, h0] at hc
    · obtain ⟨p, n, h1, h2⟩ := hw.say hX s (ht s text rfl) h0
      have hn : n = ⟨((w.node s).st.applyAll ((w.node s).st.encryptTrace (X.env s) (X.addr s.peer) text).2).1, (w.node s).pos⟩ := by
        rw [← Node.say_st, h1]
      subst hn
      have hcut := h.cut hcl s (encryptTrace_shape (X.env s) (w.node s).st (X.addr s.peer) text) ⟨Nat.le_refl _, Nat.le_add_right ..⟩ h2 k
      have hstep : c.step (.say s text) = some (.said, c.said s text) := by simp only [Talk.Conv.step, if_neg h0]; rfl
      simp only [Talk.Conv.lose, hstep, Option.map_some, Option.some.injEq] at hc
      simp only [World.xstep, Prod.mk.injEq, XOut.crashed.injEq] at hx
      obtain ⟨rfl, rfl⟩ := hx
      subst hc
      cases hb : (((w.node s).st.encryptTrace (X.env s) (X.addr s.peer) text).2.take k).any Effect.isStore with
      | false => exact ⟨es, by simpa using hcut.1 hb⟩
      | true =>
        have h3 := (hcut.2 hb).dropLast (notes := c.notes) (y := ⟨s, (c.party s).turn, (c.party s).sent, text⟩) rfl
        exact ⟨es, by simpa using h3⟩
  | deliver i =>
    cases hn : c.notes[i]? with
    | none => simp [Talk.Conv.lose, Talk.Conv.step, hn] at hc
    | some n =>
      obtain ⟨⟨sd, p⟩, hwi, hp⟩ := all2_get h.wire hn
      have hsd : sd = n.sender := hp.side
      subst hsd
      have hd := hw.deliver hX hp
      simp only [Talk.Conv.lose, Talk.Conv.step, hn] at hc
      simp only [World.xstep, hwi, Prod.mk.injEq, XOut.crashed.injEq] at hx
      obtain ⟨rfl, rfl⟩ := hx
      have hpos := Node.hear_pos (E := X.env n.sender.peer) (p := p) (h.prev_nil hcl n.sender.peer)
      have hshape := Node.ops_shape (X.env n.sender.peer) (X.addr n.sender) (w.node n.sender.peer) p
      have hfull : ∀ r n', (w.node n.sender.peer).hear (X.env n.sender.peer) (X.addr n.sender) p = (r, n') →
          n' = ⟨((w.node n.sender.peer).st.applyAll ((w.node n.sender.peer).ops (X.env n.sender.peer) (X.addr n.sender) p)).1,
            ((w.node n.sender.peer).hear (X.env n.sender.peer) (X.addr n.sender) p).2.pos⟩ := by
        intro r n' he
        have := Node.hear_st (X.env n.sender.peer) (X.addr n.sender) (w.node n.sender.peer) p
        rw [← this, he]
      simp only [peer_peer] at hpos
      cases hv : (c.party n.sender.peer).receive n.turn n.number with
      | forgotten => rw [hv] at hc; simp at hc
      | refused =>
        rw [hv] at hc hd
        simp only [Option.map_some, Option.some.injEq] at hc
        obtain ⟨e, n', h1, h2⟩ := hd hcl
        rw [hfull _ _ h1] at h2
        have hcut := h.cut hcl n.sender.peer (ops := (w.node n.sender.peer).ops (X.env n.sender.peer) (X.addr n.sender) p) (by rw [peer_peer]; exact hshape) hpos h2 k
        have hcc : c = c' := by rw [← hc]; split <;> rfl
        subst hcc
        refine ⟨es, ?_⟩
        cases hb : (((w.node n.sender.peer).ops (X.env n.sender.peer) (X.addr n.sender) p).take k).any Effect.isStore with
        | false => exact hcut.1 hb
        | true => exact hcut.2 hb
      | accepted p' =>
        rw [hv] at hc hd
        simp only [Option.map_some, Option.some.injEq] at hc
        obtain ⟨n', es', h1, h2⟩ := hd
        rw [hfull _ _ h1] at h2
        have hcut := h.cut hcl n.sender.peer (ops := (w.node n.sender.peer).ops (X.env n.sender.peer) (X.addr n.sender) p) (by rw [peer_peer]; exact hshape) hpos h2 k
        cases hb : (((w.node n.sender.peer).ops (X.env n.sender.peer) (X.addr n.sender) p).take k).any Effect.isStore with
        | false => rw [hb] at hc; simp only [Bool.false_eq_true, if_false] at hc; subst hc; exact ⟨es, hcut.1 hb⟩
        | true =>
          rw [hb] at hc
          simp only [if_true] at hc
          refine ⟨es', ?_⟩
          have : c' = c.set n.sender.peer p' := by rw [← hc]; generalize n.sender.peer = s; cases s <;> rfl
          rw [this]
          exact hcut.2 hb

theorem Inv.xrun {X : Setup} (hX : X.Ok) (hcl : X.clean) (evs : List XEvent)
    (hl : ∀ s t, XEvent.full (.say s t) ∈ evs ∨ (∃ k, XEvent.crash (.say s t) k ∈ evs) → t.length < 2 ^ 63) :
    ∀ {w : World} {c : Conv} {es : Nat → Key32}, Inv X w c es (2 * evs.length) →
      ∀ outs, c.runWithCrashes (withCrashes evs (w.xrun X.env X.addr evs)) = some outs → All2 Matches outs (fullOuts (w.xrun X.env X.addr evs)) := by
  induction evs with
  | nil => intro w c es _ outs ho; simp only [World.xrun, withCrashes, Talk.Conv.runWithCrashes, Option.some.injEq] at ho; subst ho; exact .nil
  | cons ev evs ih =>
    intro w c es h outs ho
    have ih := @ih (fun s t hm => hl s t (hm.imp (List.mem_cons_of_mem _) fun ⟨k, hk⟩ => ⟨k, List.mem_cons_of_mem _ hk⟩))
    have hlen : 2 * (ev :: evs).length = 2 * evs.length + 2 := by simp only [List.length_cons]; omega
    rw [hlen] at h
    simp only [World.xrun] at ho ⊢
    cases ev with
    | crash e k =>
      obtain ⟨b, w', hx⟩ : ∃ b w', w.xstep X.env X.addr (.crash e k) = (.crashed b, w') := by
        cases e with
        | say s t => exact ⟨_, _, rfl⟩
        | deliver i =>
          simp only [World.xstep]
          split
          · exact ⟨_, _, rfl⟩
          · exact ⟨_, _, rfl⟩
      rw [hx] at ho ⊢
      simp only [withCrashes, Talk.Conv.runWithCrashes, fullOuts] at ho ⊢
      cases hc : c.lose e b with
      | none => simp [hc] at ho
      | some c' =>
        simp only [hc] at ho
        obtain ⟨es', hi⟩ := h.lose hX hcl e k (fun s t he => hl s t (.inr ⟨k, by rw [← he]; exact List.mem_cons_self ..⟩)) hx hc
        exact ih hi outs ho
    | full ev =>
      have h := Inv.weaken (l' := 2 * evs.length + 1) h (by omega)
      simp only [World.xstep, withCrashes, Talk.Conv.runWithCrashes, fullOuts] at ho ⊢
      cases ev with
      | say s text =>
        by_cases ht : (c.party s).turn = 0
        · simp [Talk.Conv.step, ht] at ho
        · obtain ⟨p, n, h1, h2⟩ := h.say hX s (hl s text (.inl (List.mem_cons_self ..))) ht
          have hstep : c.step (.say s text) = some (.said, c.said s text) := by simp only [Talk.Conv.step, if_neg ht]; rfl
          simp only [hstep, World.step, h1, Option.map_eq_some_iff] at ho ⊢
          obtain ⟨os, ho1, rfl⟩ := ho
          exact .cons trivial (ih h2 _ ho1)
      | deliver i =>
        cases hn : c.notes[i]? with
        | none => simp [Talk.Conv.step, hn] at ho
        | some n =>
          obtain ⟨⟨sd, p⟩, hw, hp⟩ := all2_get h.wire hn
          have hsd : sd = n.sender := hp.side
          subst hsd
          have hd := h.deliver hX hp
          simp only [Talk.Conv.step, hn, World.step, hw] at ho ⊢
          cases hv : (c.party n.sender.peer).receive n.turn n.number with
          | forgotten => rw [hv] at ho; simp at ho
          | refused =>
            rw [hv] at ho hd
            obtain ⟨e, n', h1, h2⟩ := hd hcl
            simp only [h1, Option.map_eq_some_iff] at ho ⊢
            obtain ⟨os, ho1, rfl⟩ := ho
            exact .cons trivial (ih h2 _ ho1)
          | accepted p' =>
            rw [hv] at ho hd
            obtain ⟨n', es', h1, h2⟩ := hd
            simp only [h1, Option.map_eq_some_iff] at ho ⊢
            obtain ⟨os, ho1, rfl⟩ := ho
            exact .cons rfl (ih h2 _ ho1)

/-- **C81.** The situation of C03, but either user may die during any call, after any number of its store operations, any number of times; he continues with what his stores hold.  All
completed calls return exactly what the specification with crashes (Spec/TalkCrash) says: a call that was cut off counts as made if it had reached `StoreSession` (its result is lost), and
otherwise as not made. -/
theorem C81_crashes {C : Crypto} (hdh : C.DhLaw) (haes : C.AesLaw) {A B : Env} {addrA addrB : Addr} {stA stB stA' : Store} {posA posB posA' : Nat}
    {b : Bundle} {spk ot : IdKeyPair} (evs : List XEvent) (h : Meeting C A B addrA addrB stA stB stA' posA posB posA' b spk ot (2 * evs.length))
    (hn : 2 * evs.length < 2 ^ 32) (ht : ∀ s t, XEvent.full (.say s t) ∈ evs ∨ (∃ k, XEvent.crash (.say s t) k ∈ evs) → t.length < 2 ^ 63)
    (outs : List Outcome)
    (ho : Conv.start.runWithCrashes (withCrashes evs (World.xrun (sides A B) (sides addrA addrB) ⟨sides ⟨stA', posA'⟩ ⟨stB, posB⟩, []⟩ evs)) = some outs) :
    All2 Matches outs (fullOuts (World.xrun (sides A B) (sides addrA addrB) ⟨sides ⟨stA', posA'⟩ ⟨stB, posB⟩, []⟩ evs)) := by
  obtain ⟨X, es, hX, h1, h2, h3, hcl, -, hi⟩ := h.inv hdh haes hn
  rw [← h1, ← h2] at ho ⊢
  exact hi.xrun hX hcl evs ht outs ho

theorem Meeting.weaken {C : Crypto} {A B : Env} {addrA addrB : Addr} {stA stB stA' : Store} {posA posB posA' : Nat} {b : Bundle} {spk ot : IdKeyPair} {n n' : Nat}
    (h : Meeting C A B addrA addrB stA stB stA' posA posB posA' b spk ot n) (hn : n' ≤ n) : Meeting C A B addrA addrB stA stB stA' posA posB posA' b spk ot n' :=
  ⟨h.cryptoA, h.cryptoB, h.serA, h.serB, h.idA, h.idB, h.spkPair, h.otPair, h.bIdentity, h.bSigned, h.bOneTime, h.bOneTimeId, h.bSignedId, h.newA, h.newB, h.knownB, h.trustB, h.processed,
    ⟨fun i h1 h2 => h.randA.works i h1 (by omega), fun i j h1 h2 h3 => h.randA.distinct i j h1 h2 (by omega)⟩,
    ⟨fun i h1 h2 => h.randB.works i h1 (by omega), fun i j h1 h2 h3 => h.randB.distinct i j h1 h2 (by omega)⟩, fun i h1 h2 => h.randSpk i h1 (by omega)⟩

section
open Toy

/-- Alice dies before and after storing; Bob dies while reading her first message, before storing, and again after storing (the prekey is still there). -/
def toyCrashes : List XEvent :=
  [.full (.say .alice [1]), .crash (.say .alice [9]) 1, .full (.say .alice [2]), .crash (.say .alice [8]) 2, .full (.say .alice [3]),
   .crash (.deliver 1) 1, .full (.deliver 1), .crash (.deliver 0) 2, .full (.deliver 0), .full (.deliver 2), .full (.say .bob [4]), .crash (.deliver 3) 0, .full (.deliver 3),
   .full (.say .alice [5]), .full (.deliver 4)]

/-- Bob dies after storing the session and before removing the prekey; the message is lost, the conversation goes on. -/
def toyCrashes2 : List XEvent :=
  [.full (.say .alice [1]), .crash (.deliver 0) 2, .full (.deliver 0), .full (.say .alice [2]), .full (.deliver 1), .full (.say .bob [3]), .full (.deliver 2)]

def toyStart : World := ⟨sides ⟨aliceW1, 2⟩ ⟨bobStore, 0⟩, []⟩

theorem toyCrashes_spec : Conv.start.runWithCrashes (withCrashes toyCrashes (World.xrun (sides aliceW bobW) (sides Toy.alice Toy.bob) toyStart toyCrashes)) =
      some [.said, .said, .said, .got [2], .rejected, .got [3], .said, .got [4], .said, .got [5]] := by decide +kernel
theorem toyCrashes_spec2 : Conv.start.runWithCrashes (withCrashes toyCrashes2 (World.xrun (sides aliceW bobW) (sides Toy.alice Toy.bob) toyStart toyCrashes2)) =
      some [.said, .rejected, .said, .got [2], .said, .got [3]] := by decide +kernel

/-- Non-vacuity of C81. -/
example : All2 Matches [.said, .said, .said, .got [2], .rejected, .got [3], .said, .got [4], .said, .got [5]]
    (fullOuts (World.xrun (sides aliceW bobW) (sides Toy.alice Toy.bob) toyStart toyCrashes)) := by
  refine C81_crashes Toy.dhLaw Toy.aesLaw toyCrashes (toy_meeting_crowd.weaken (by decide)) (by decide) ?_ _ toyCrashes_spec
  intro s t hm
  simp only [toyCrashes, List.mem_cons, XEvent.full.injEq, XEvent.crash.injEq, Event.say.injEq, reduceCtorEq, false_or, or_false, false_and, List.not_mem_nil] at hm
  rcases hm with (⟨-, rfl⟩ | ⟨-, rfl⟩ | ⟨-, rfl⟩ | ⟨-, rfl⟩ | ⟨-, rfl⟩) | ⟨k, ⟨⟨-, rfl⟩, -⟩ | ⟨⟨-, rfl⟩, -⟩⟩ <;> decide

/-- After the crash between `StoreSession` and `RemovePreKey` the one-time prekey is still in Bob's store. -/
example : ((World.xstep (sides aliceW bobW) (sides Toy.alice Toy.bob) (World.xstep (sides aliceW bobW) (sides Toy.alice Toy.bob) toyStart (.full (.say .alice [1]))).2
    (.crash (.deliver 0) 2)).2.node .bob).st.preKeys 9 = some oneTime := by decide +kernel
end

end Verif

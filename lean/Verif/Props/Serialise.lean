import Verif.Model.Store
import Verif.Proofs.Basic
import Verif.Proofs.ToyFlow
/-
C21: session records survive conversion to their serialisable structure and back.
-/
set_option linter.unusedSimpArgs false
namespace Verif

theorem Chain.roundtrip (c : Chain) : Chain.ofStruct (some c.toStruct) = .ok c := by
  obtain ⟨⟨pub, priv⟩, ck, mks⟩ := c
  simp only [Chain.ofStruct, Chain.toStruct, decodePoint_serPub, Res.map_ok]
  cases priv with
  | none => simp
  | some p => simp [p.len, sliceToArray_bytes]

theorem collect_ok {α β : Type} (f : α → β) (l : List α) (g : β → Res α) (h : ∀ a ∈ l, g (f a) = .ok a) :
    collect ((l.map f).map g) = .ok l := by
  induction l with
  | nil => rfl
  | cons a l ih =>
    simp only [List.map_cons, collect, h a List.mem_cons_self, ih (fun b hb => h b (List.mem_cons_of_mem _ hb))]

theorem seqRes_ok_iff {α : Type} (l : List (Res α)) (as : List α) : seqRes l = .ok as ↔ l = as.map .ok := by
  induction l generalizing as with
  | nil => cases as <;> simp [seqRes]
  | cons x l ih =>
    cases x with
    | err e => cases as <;> simp [seqRes]
    | panic => cases as <;> simp [seqRes]
    | ok a =>
      simp only [seqRes, Res.bind_ok]
      cases hs : seqRes l with
      | err e =>
        simp only [Res.map_err, reduceCtorEq, false_iff]
        intro h
        cases as with
        | nil => simp at h
        | cons b bs =>
          simp only [List.map_cons, List.cons.injEq] at h
          have := (ih bs).2 h.2
          rw [hs] at this; simp at this
      | panic =>
        simp only [Res.map_panic, reduceCtorEq, false_iff]
        intro h
        cases as with
        | nil => simp at h
        | cons b bs =>
          simp only [List.map_cons, List.cons.injEq] at h
          have := (ih bs).2 h.2
          rw [hs] at this; simp at this
      | ok bs =>
        simp only [Res.map_ok, Res.ok.injEq]
        have h1 := (ih bs).1 hs
        constructor
        · rintro rfl; simp [h1]
        · intro h
          cases as with
          | nil => simp at h
          | cons b bs' =>
            simp only [List.map_cons, List.cons.injEq, Res.ok.injEq] at h
            rw [h.1, Res.ok.inj (hs.symm.trans ((ih bs').2 h.2))]

/-- A state that has been set up: both identities, root key, base key and sending chain are present. -/
def SState.Initialised (s : SState) : Prop :=
  s.localIdentity ≠ none ∧ s.remoteIdentity ≠ none ∧ s.rootKey ≠ none ∧ s.senderBaseKey ≠ none ∧ s.senderChain ≠ none

instance (s : SState) : Decidable s.Initialised := by unfold SState.Initialised; infer_instance

theorem SState.toStruct_ok_iff (s : SState) : (∃ st, s.toStruct = .ok st) ↔ s.Initialised := by
  unfold SState.Initialised SState.toStruct
  cases s.localIdentity <;> cases s.remoteIdentity <;> cases s.rootKey <;> cases s.senderBaseKey <;> cases s.senderChain <;> simp

theorem SState.toStruct_cases (s : SState) : (∃ st, s.toStruct = .ok st) ∨ s.toStruct = .panic := by
  unfold SState.toStruct
  cases s.localIdentity <;> cases s.remoteIdentity <;> cases s.rootKey <;> cases s.senderBaseKey <;> cases s.senderChain <;> simp

theorem SState.roundtrip {s : SState} {st : StateStruct} (h : s.toStruct = .ok st) : SState.ofStruct st = .ok s := by
  obtain ⟨li, lr, nr, pe, pp, pc, rcs, ri, rr, rk, bk, sc, v⟩ := s
  unfold SState.toStruct at h
  cases li with
  | none => simp at h
  | some li => cases ri with
    | none => simp at h
    | some ri => cases rk with
      | none => simp at h
      | some rk => cases bk with
        | none => simp at h
        | some bk => cases sc with
          | none => simp at h
          | some sc =>
            simp only [Res.ok.injEq] at h
            subst h
            have hrc : collect ((rcs.map Chain.toStruct).map fun c => Chain.ofStruct (some c)) = .ok rcs :=
              collect_ok Chain.toStruct rcs (fun c => Chain.ofStruct (some c)) (fun a _ => Chain.roundtrip a)
            have hpe : (pe.map PendingKeyExchange.toStruct).map PendingKeyExchange.ofStruct = pe := by
              cases pe with
              | none => rfl
              | some p => simp [PendingKeyExchange.toStruct, PendingKeyExchange.ofStruct, sliceToArray_bytes]
            unfold SState.ofStruct
            simp only [decodePoint_serPub, hrc, Chain.roundtrip, hpe]
            cases pp with
            | none => rfl
            | some p => simp [PendingPreKey.toStruct, PendingPreKey.ofStruct, decodePoint_serPub, both]

theorem ofStates_state (s : SState) (ps : List SState) : (Rec.ofStates s ps).state = s := by
  simp [Rec.ofStates, Rec.state]

theorem ofStates_prev (s : SState) (ps : List SState) : (Rec.ofStates s ps).prevStates = ps := by
  simp only [Rec.ofStates, Rec.prevStates, List.map_map]
  apply List.ext_getElem
  · simp
  · intro i h1 h2
    simp at h1
    simp [h1]

theorem ofStates_nodup (s : SState) (ps : List SState) : ((Rec.ofStates s ps).cur :: (Rec.ofStates s ps).prev).Nodup := by
  simp only [Rec.ofStates, List.nodup_cons]
  constructor
  · simp
  · rw [List.nodup_iff_pairwise_ne, List.pairwise_map]
    exact List.pairwise_lt_range.imp (by intro x y h; omega)

theorem Rec.toStruct_ok {r : Rec} {st : SessionStruct} (h : r.toStruct = .ok st) :
    r.state.toStruct = .ok st.state ∧ r.prevStates.map SState.toStruct = st.previous.map .ok := by
  unfold Rec.toStruct at h
  cases hp : seqRes (r.prevStates.map SState.toStruct) with
  | err e => simp [hp] at h
  | panic => simp [hp] at h
  | ok prev =>
    simp only [hp, Res.bind_ok] at h
    cases hs : r.state.toStruct with
    | err e => simp [hs] at h
    | panic => simp [hs] at h
    | ok s =>
      simp only [hs, Res.map_ok, Res.ok.injEq] at h
      subst h
      exact ⟨rfl, (seqRes_ok_iff _ _).1 hp⟩

theorem Rec.ofStruct_toStruct {r : Rec} {st : SessionStruct} (h : r.toStruct = .ok st) :
    Rec.ofStruct st = .ok (Rec.ofStates r.state r.prevStates) := by
  obtain ⟨h1, h2⟩ := Rec.toStruct_ok h
  unfold Rec.ofStruct
  have : seqRes (st.previous.map SState.ofStruct) = .ok r.prevStates := by
    rw [seqRes_ok_iff]
    generalize r.prevStates = ps at h2 ⊢
    generalize st.previous = qs at h2 ⊢
    induction qs generalizing ps with
    | nil => cases ps <;> simp_all
    | cons q qs ih =>
      cases ps with
      | nil => simp at h2
      | cons p ps =>
        simp only [List.map_cons, List.cons.injEq] at h2 ⊢
        exact ⟨SState.roundtrip h2.1, ih ps h2.2⟩
  rw [this]
  simp [SState.roundtrip h1]

/-- **C21.** A session record all of whose states are initialised can be serialised; rebuilding it
succeeds and gives a record with exactly the same current state (all thirteen fields: keys, counters, chains with
their skipped keys, pending data) and the same archived states in the same order.  Serialisation panics exactly when some
state is not initialised. -/
theorem C21_record_roundtrip (r : Rec) :
    ((∀ s ∈ r.state :: r.prevStates, s.Initialised) →
      ∃ st r', r.toStruct = .ok st ∧ Rec.ofStruct st = .ok r' ∧ r'.state = r.state ∧ r'.prevStates = r.prevStates ∧ r'.fresh = false) ∧
    ((∃ s ∈ r.state :: r.prevStates, ¬ s.Initialised) → r.toStruct = .panic) := by
  constructor
  · intro h
    obtain ⟨s0, hs0⟩ := (SState.toStruct_ok_iff r.state).2 (h _ List.mem_cons_self)
    have : ∃ prev : List StateStruct, r.prevStates.map SState.toStruct = prev.map .ok := by
      have hp : ∀ s ∈ r.prevStates, s.Initialised := fun s hs => h s (List.mem_cons_of_mem _ hs)
      clear h
      generalize r.prevStates = ps at hp
      induction ps with
      | nil => exact ⟨[], rfl⟩
      | cons p ps ih =>
        obtain ⟨l, hl⟩ := ih (fun s hs => hp s (List.mem_cons_of_mem _ hs))
        obtain ⟨q, hq⟩ := (SState.toStruct_ok_iff p).2 (hp p List.mem_cons_self)
        exact ⟨q :: l, by simp [hl, hq]⟩
    obtain ⟨prev, hprev⟩ := this
    have hst : r.toStruct = .ok ⟨s0, prev⟩ := by
      unfold Rec.toStruct
      rw [(seqRes_ok_iff _ _).2 hprev]
      simp [hs0]
    exact ⟨_, _, hst, Rec.ofStruct_toStruct hst, ofStates_state _ _, ofStates_prev _ _, rfl⟩
  · rintro ⟨s, hs, hni⟩
    have hsp : s.toStruct = .panic := by
      rcases SState.toStruct_cases s with h | h
      · exact absurd ((SState.toStruct_ok_iff s).1 h) hni
      · exact h
    unfold Rec.toStruct
    rcases List.mem_cons.1 hs with rfl | hs
    · have : ∀ l : List SState, ∀ e, seqRes (l.map SState.toStruct) ≠ .err e := by
        intro l
        induction l with
        | nil => intro e; simp [seqRes]
        | cons p l ih =>
          intro e
          simp only [List.map_cons, seqRes]
          rcases SState.toStruct_cases p with ⟨st, h⟩ | h
          · rw [h]
            simp only [Res.bind_ok]
            have := ih
            cases hq : seqRes (l.map SState.toStruct) with
            | err e' => exact absurd hq (ih e')
            | panic => simp
            | ok x => simp
          · rw [h]; simp
      cases hq : seqRes (r.prevStates.map SState.toStruct) with
      | err e => exact absurd hq (this _ e)
      | panic => rfl
      | ok x => simp [hsp]
    · have : ∀ l : List SState, s ∈ l → seqRes (l.map SState.toStruct) = .panic := by
        intro l
        induction l with
        | nil => intro h; simp at h
        | cons p l ih =>
          intro h
          simp only [List.map_cons, seqRes]
          rcases SState.toStruct_cases p with ⟨st, hp⟩ | hp
          · rcases List.mem_cons.1 h with rfl | h
            · rw [hsp] at hp; simp at hp
            · rw [hp, ih h]; rfl
          · rw [hp]; rfl
      rw [this _ hs]; rfl

/-- A serialising store returns what was stored. -/
theorem Store.load_stored {st : Store} {a : Addr} {r : Rec} {s : SessionStruct} (h : r.toStruct = .ok s) (hs : st.sessions a = some s) :
    st.load a = .ok (Rec.ofStates r.state r.prevStates) := by
  unfold Store.load
  rw [hs, ]
  simp only [Rec.ofStruct_toStruct h]

/-- A record whose current state was archived by a second bundle: all hypotheses of C21 hold, with an
archived state and a receiving chain present. -/
example : ∀ s ∈ (Toy.recOf (Toy.alice4.processBundle Toy.aliceEnv 5 Toy.bob Toy.bundle).2.1 Toy.bob).state ::
    (Toy.recOf (Toy.alice4.processBundle Toy.aliceEnv 5 Toy.bob Toy.bundle).2.1 Toy.bob).prevStates, s.Initialised := by
  decide +kernel
example : (Toy.recOf (Toy.alice4.processBundle Toy.aliceEnv 5 Toy.bob Toy.bundle).2.1 Toy.bob).prevStates.length = 1 := by
  decide +kernel

end Verif

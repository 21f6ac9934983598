import Verif.Model.GroupThreads
import Verif.Props.GroupStores
/-
C82: with a lock per sender key name, concurrent use of the group API is equivalent to calls made one after the other.
-/
namespace Verif

/-- A call in two steps is the call. -/
theorem loaded_call (C : Crypto) (S : Ser SKStruct) (st : GStore) (c : GOp) :
    st.call C S c = ((c.loaded C S st).1, st.put c.name (c.loaded C S st).2) := by
  cases c with
  | encrypt n pt rand =>
    simp only [GStore.call, GStore.encrypt, GOp.loaded, GOp.name]
    cases st.load n with
    | err e => rfl
    | panic => rfl
    | ok r =>
      simp only [GOp.work]
      cases h : groupEncrypt C S rand r pt with
      | mk res x => obtain ⟨r', b⟩ := x; cases r' <;> cases b <;> rfl
  | decrypt n m =>
    simp only [GStore.call, GStore.decrypt, GOp.loaded, GOp.name]
    cases st.load n with
    | err e => rfl
    | panic => rfl
    | ok r =>
      simp only [GOp.work]
      cases h : groupDecrypt C S r m with
      | mk res x => obtain ⟨r', b⟩ := x; cases r' <;> cases b <;> rfl
  | process n m =>
    simp only [GStore.call, GStore.process, GOp.loaded, GOp.name]
    cases st.load n <;> rfl
  | create n d =>
    simp only [GStore.call, GStore.create, GOp.loaded, GOp.name]
    cases st.load n with
    | err e => rfl
    | panic => rfl
    | ok r =>
      simp only [GOp.work]
      cases h : groupCreate C d r with
      | mk res r' => cases r' <;> rfl

theorem loaded_congr (C : Crypto) (S : Ser SKStruct) {st st' : GStore} (c : GOp) (h : st'.recs c.name = st.recs c.name) : c.loaded C S st' = c.loaded C S st := by
  simp only [GOp.loaded, GStore.load, h]

section
variable {L : Type} [DecidableEq L]

/-- The interleaved system against the sequential one: a goroutine inside a call holds its lock, and what it will answer and store is what the whole call would give now. -/
structure GLinear (C : Crypto) (S : Ser SKStruct) (lockOf : SenderKeyName → L) (app : Nat → GApp) (x : GSys L) (y : GTurns) : Prop where
  store : x.store = y.store
  hist : ∀ i, (x.threads i).hist = y.hist i
  inside : ∀ i c ans r, (x.threads i).cur = some (c, ans, r) → x.lock (lockOf c.name) = some i ∧ app i (y.hist i) = some c ∧ c.loaded C S y.store = (ans, r)

theorem GLinear.step {C : Crypto} {S : Ser SKStruct} {lockOf : SenderKeyName → L} {app : Nat → GApp} {x : GSys L} {y : GTurns} (h : GLinear C S lockOf app x y) (i : Nat) :
    GLinear C S lockOf app (x.step C S lockOf app i) y ∨ GLinear C S lockOf app (x.step C S lockOf app i) (y.step C S app i) := by
  unfold GSys.step
  cases hc : (x.threads i).cur with
  | none =>
    left
    simp only
    cases ha : app i (x.threads i).hist with
    | none => exact h
    | some c =>
      simp only
      split
      · rename_i hfree
        refine ⟨h.store, ?_, ?_⟩
        · intro j; simp only; split
          · rename_i hj; subst hj; exact h.hist j
          · exact h.hist j
        · intro j c' ans r hj
          simp only at hj ⊢
          by_cases hji : j = i
          · subst hji
            simp only [if_true, Option.some.injEq, Prod.mk.injEq] at hj
            obtain ⟨rfl, hj⟩ := hj
            refine ⟨by simp, by rw [← h.hist]; exact ha, ?_⟩
            rw [← h.store]
            exact hj
          · rw [if_neg hji] at hj
            obtain ⟨h1, h2, h3⟩ := h.inside j c' ans r hj
            refine ⟨?_, h2, h3⟩
            rw [if_neg, h1]
            intro he; rw [he, hfree] at h1; cases h1
      · exact h
  | some q =>
    obtain ⟨c, ans, r⟩ := q
    right
    obtain ⟨h1, h2, h3⟩ := h.inside i c ans r hc
    simp only
    have hcall := loaded_call C S y.store c
    rw [h3] at hcall
    have hy : y.step C S app i = ⟨y.store.put c.name r, fun j => if j = i then y.hist i ++ [ans] else y.hist j⟩ := by
      simp only [GTurns.step, h2, hcall]
    rw [hy]
    refine ⟨?_, ?_, ?_⟩
    · simp only [h.store]
    · intro j; simp only; split
      · simp only [h.hist]
      · exact h.hist j
    · intro j c' ans' r' hj
      simp only at hj ⊢
      by_cases hji : j = i
      · subst hji; simp at hj
      · rw [if_neg hji] at hj
        obtain ⟨g1, g2, g3⟩ := h.inside j c' ans' r' hj
        have hl : lockOf c'.name ≠ lockOf c.name := by
          intro he; rw [he, h1, Option.some.injEq] at g1; exact hji g1.symm
        refine ⟨by rw [if_neg hl]; exact g1, by rw [if_neg hji]; exact g2, ?_⟩
        rw [← g3]
        refine loaded_congr C S c' ?_
        cases r with
        | none => rfl
        | some r =>
          simp only [GStore.put, GStore.save]
          rw [if_neg]
          intro he; rw [he] at hl; exact hl rfl

/-- **C82.** Goroutines call Encrypt, Decrypt, Process and Create on a shared sender-key store at the same time, each holding the lock `lockOf n` during a call for the name `n` (one lock
for all names, a lock per name, or anything else).  For every schedule there is an order of whole calls, each made at a moment when its goroutine moved, in which every goroutine gets
the same answers and the store has the same contents. -/
theorem C82_locks (C : Crypto) (S : Ser SKStruct) (lockOf : SenderKeyName → L) (app : Nat → GApp) (st : GStore) (sched : List Nat) :
    ∃ order : List Nat, order.Sublist sched ∧
      let x := (GSys.init st).run C S lockOf app sched
      let y := GTurns.run C S app ⟨st, fun _ => []⟩ order
      (∀ i, (x.threads i).hist = y.hist i) ∧ x.store = y.store := by
  have key : ∀ (sched : List Nat) (x : GSys L) (y : GTurns), GLinear C S lockOf app x y →
      ∃ order : List Nat, order.Sublist sched ∧ GLinear C S lockOf app (x.run C S lockOf app sched) (y.run C S app order) := by
    intro sched
    induction sched with
    | nil => intro x y h; exact ⟨[], .slnil, h⟩
    | cons i sched ih =>
      intro x y h
      rcases h.step i with h1 | h1
      · obtain ⟨order, h2, h3⟩ := ih _ _ h1
        exact ⟨order, .cons _ h2, h3⟩
      · obtain ⟨order, h2, h3⟩ := ih _ _ h1
        exact ⟨i :: order, .cons_cons _ h2, h3⟩
  obtain ⟨order, h1, h2⟩ := key sched (GSys.init st) ⟨st, fun _ => []⟩ ⟨rfl, fun _ => rfl, fun _ _ _ _ h => (by cases h)⟩
  exact ⟨order, h1, h2.hist, h2.store⟩
end

section
open Toy

/-- One user's sender key and a peer's, in one store. -/
def gPeer : SenderKeyName := ⟨"group", ⟨"carol", 1⟩⟩
/-- Three goroutines: two send to the group, the second after announcing the keys; the third accepts the peer's keys and reads the peer's message. -/
def gThreadsApp (i : Nat) : GApp := fun h =>
  match i, h.length with
  | 0, 0 => some (.encrypt gName [1] gRand)
  | 0, 1 => some (.encrypt gName [2] gRand)
  | 1, 0 => some (.create gName (gDraws 5 5))
  | 1, 1 => some (.encrypt gName [3] gRand)
  | 2, 0 => some (.process gPeer gSkdm)
  | 2, 1 => some (.decrypt gPeer gMsg0)
  | _, _ => none

/-- What the answers show. -/
def GAnswer.view : GAnswer → Option (UInt32 × Bytes)
  | .encrypted (.ok m) => some (m.iteration, [])
  | .decrypted (.ok t) => some (0, t)
  | .processed (.ok _) => some (0, [])
  | .created (.ok m) => some (m.iteration, [])
  | _ => none

set_option maxRecDepth 100000 in
/-- Non-vacuity of C82: the goroutines are interleaved, all six calls return; the equivalent order exists. -/
example : (∃ order, order.Sublist [0, 2, 1, 0, 2, 1, 2, 0, 1, 2, 0, 1, 0, 1, 1, 1] ∧
      ∀ i, (((GSys.init gSender).run C protoSK id gThreadsApp [0, 2, 1, 0, 2, 1, 2, 0, 1, 2, 0, 1, 0, 1, 1, 1]).threads i).hist =
        (GTurns.run C protoSK gThreadsApp ⟨gSender, fun _ => []⟩ order).hist i) ∧
    ([0, 1, 2].map fun i => (((GSys.init gSender).run C protoSK id gThreadsApp [0, 2, 1, 0, 2, 1, 2, 0, 1, 2, 0, 1, 0, 1, 1, 1]).threads i).hist.map GAnswer.view) =
      [[some (0, []), some (1, [])], [some (1, []), some (2, [])], [some (0, []), some (0, [1, 2, 3])]] := by
  refine ⟨?_, by decide +kernel⟩
  obtain ⟨order, h1, h2, -⟩ := C82_locks C protoSK id gThreadsApp gSender [0, 2, 1, 0, 2, 1, 2, 0, 1, 2, 0, 1, 0, 1, 1, 1]
  exact ⟨order, h1, h2⟩
end

end Verif

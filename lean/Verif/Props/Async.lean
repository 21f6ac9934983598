import Verif.Model.Async
import Verif.Proofs.Toy
/-
C90: the asynchronous calls.
-/
namespace Verif

/-- The answer due to a call whose message is `m`: what the synchronous function returns for it. -/
def AnswerDue (C : Crypto) (m got : Bytes) (j : AsyncJob) (a : AsyncAnswer) : Prop :=
  match j with
  | .verify key _ sig => (C.verify key m sig = true → a = .valid true) ∧ (C.verify key m sig = false → a = .failed)
  | .sign priv _ =>
    ((calculateSignatureFrom C priv m got).bytes ≠ List.replicate 64 0 → a = .signature (calculateSignatureFrom C priv m got)) ∧
    ((calculateSignatureFrom C priv m got).bytes = List.replicate 64 0 → a = .failed)
  | .identity => (∀ kp, generateIdentityKeyPair C (drawOf got) = .ok kp → a = .keyPair kp) ∧ (∀ e, generateIdentityKeyPair C (drawOf got) = .err e → a = .failed)

/-- The buffer a call reads its message from. -/
def AsyncJob.buffer : AsyncJob → Option Nat
  | .verify _ b _ => some b
  | .sign _ b => some b
  | .identity => none

/-- The contents of the call's message (nothing for key generation). -/
def AsyncJob.message (mem : Nat → Bytes) (j : AsyncJob) : Bytes := (j.buffer.map mem).getD []

/-- How many asynchronous calls have been made. -/
def callsIn (es : List AsyncEvent) : Nat := (es.filter fun e => match e with | .call _ => true | _ => false).length

/-- The completion calls made for call number `i`. -/
def AsyncWorld.answersTo (w : AsyncWorld) (i : Nat) : List AsyncAnswer := (w.answers.filter fun x => x.1 = i).map (·.2)

theorem run_due (C : Crypto) (mem : Nat → Bytes) (got : Bytes) (j : AsyncJob) : AnswerDue C (j.message mem) got j (j.run C mem got) := by
  cases j with
  | verify key b sig => simp only [AnswerDue, AsyncJob.message, AsyncJob.buffer, AsyncJob.run, Option.map_some, Option.getD_some]; cases C.verify key (mem b) sig <;> simp
  | sign p b =>
    simp only [AnswerDue, AsyncJob.message, AsyncJob.buffer, AsyncJob.run, Option.map_some, Option.getD_some]
    generalize calculateSignatureFrom C p (mem b) got = s
    have : s = zeroSig ↔ s.bytes = List.replicate 64 0 := ⟨fun h => by rw [h]; rfl, fun h => Arr.ext h⟩
    by_cases h : s = zeroSig
    · rw [if_pos h]; exact ⟨fun h' => absurd (this.1 h) h', fun _ => rfl⟩
    · rw [if_neg h]; exact ⟨fun _ => rfl, fun h' => absurd (this.2 h') h⟩
  | identity =>
    simp only [AnswerDue, AsyncJob.run]
    cases generateIdentityKeyPair C (drawOf got) <;> simp

theorem steps_append (C : Crypto) (w : AsyncWorld) (a b : List AsyncEvent) : w.steps C (a ++ b) = (w.steps C a).steps C b := by
  induction a generalizing w with
  | nil => rfl
  | cons e a ih => exact ih _

theorem step_jobs_length (C : Crypto) (w : AsyncWorld) (e : AsyncEvent) : (w.step C e).jobs.length = w.jobs.length + callsIn [e] := by
  cases e with
  | call j => simp [AsyncWorld.step, callsIn]
  | write b x => simp [AsyncWorld.step, callsIn]
  | run i got =>
    simp only [AsyncWorld.step]
    split <;> simp [callsIn]

theorem callsIn_cons (e : AsyncEvent) (es : List AsyncEvent) : callsIn (e :: es) = callsIn [e] + callsIn es := by
  unfold callsIn
  rw [← List.length_append, ← List.filter_append]
  rfl

theorem steps_jobs_length (C : Crypto) (w : AsyncWorld) (es : List AsyncEvent) : (w.steps C es).jobs.length = w.jobs.length + callsIn es := by
  induction es generalizing w with
  | nil => simp [AsyncWorld.steps, callsIn]
  | cons e es ih => rw [AsyncWorld.steps, ih, step_jobs_length, callsIn_cons e es]; omega

theorem answersTo_append (w : AsyncWorld) (i k : Nat) (a : AsyncAnswer) :
    AsyncWorld.answersTo { w with answers := w.answers ++ [(k, a)] } i = w.answersTo i ++ (if k = i then [a] else []) := by
  unfold AsyncWorld.answersTo
  simp only [List.filter_append, List.map_append]
  by_cases h : k = i <;> simp [h]

/-- A call that is answered stays as it is. -/
theorem done_stays (C : Crypto) (es : List AsyncEvent) (w : AsyncWorld) (i : Nat) (j : AsyncJob) (h : w.jobs[i]? = some (j, true)) :
    (w.steps C es).answersTo i = w.answersTo i := by
  induction es generalizing w with
  | nil => rfl
  | cons e es ih =>
    rw [AsyncWorld.steps]
    have hlt := (List.getElem?_eq_some_iff.1 h).1
    cases e with
    | call j' => exact ih _ (by simp only [AsyncWorld.step]; rw [List.getElem?_append_left hlt]; exact h)
    | write b x => exact ih _ h
    | run k got =>
      simp only [AsyncWorld.step]
      split
      · rename_i j' hk
        have hne : k ≠ i := fun e => by rw [e, h] at hk; simp at hk
        rw [ih _ (by simp only; rw [List.getElem?_set_ne hne]; exact h)]
        have := answersTo_append { w with jobs := w.jobs.set k (j', true) } i k (j'.run C w.mem got)
        rw [if_neg hne, List.append_nil] at this
        exact this
      · exact ih _ h

/-- While the goroutine of call `i` has not run, it has no answer; and its message is untouched unless somebody writes to its buffer. -/
theorem pending_stays (C : Crypto) (es : List AsyncEvent) (w : AsyncWorld) (i : Nat) (j : AsyncJob) (h : w.jobs[i]? = some (j, false))
    (hr : ∀ got, AsyncEvent.run i got ∉ es) :
    (w.steps C es).jobs[i]? = some (j, false) ∧ (w.steps C es).answersTo i = w.answersTo i ∧
    ((∀ b x, AsyncEvent.write b x ∈ es → j.buffer ≠ some b) → j.message (w.steps C es).mem = j.message w.mem) := by
  induction es generalizing w with
  | nil => exact ⟨h, rfl, fun _ => rfl⟩
  | cons e es ih =>
    rw [AsyncWorld.steps]
    have hlt := (List.getElem?_eq_some_iff.1 h).1
    have hr' : ∀ got, AsyncEvent.run i got ∉ es := fun got hg => hr got (List.mem_cons_of_mem _ hg)
    cases e with
    | call j' =>
      obtain ⟨h1, h2, h3⟩ := ih (w.step C (.call j')) (by simp only [AsyncWorld.step]; rw [List.getElem?_append_left hlt]; exact h) hr'
      exact ⟨h1, h2, fun hw => h3 (fun b x hm => hw b x (List.mem_cons_of_mem _ hm))⟩
    | write b x =>
      obtain ⟨h1, h2, h3⟩ := ih (w.step C (.write b x)) h hr'
      refine ⟨h1, h2, fun hw => ?_⟩
      rw [h3 (fun b x hm => hw b x (List.mem_cons_of_mem _ hm))]
      have := hw b x (by simp)
      unfold AsyncJob.message
      cases hb : j.buffer with
      | none => rfl
      | some b' =>
        rw [hb] at this
        simp only [AsyncWorld.step, Option.map_some, Option.getD_some]
        rw [if_neg (fun e => this (by rw [e]))]
    | run k got =>
      have hne : k ≠ i := fun e => hr got (by rw [e]; simp)
      have key : (w.step C (.run k got)).jobs[i]? = some (j, false) ∧ (w.step C (.run k got)).answersTo i = w.answersTo i ∧ (w.step C (.run k got)).mem = w.mem := by
        simp only [AsyncWorld.step]
        split
        · rename_i j' hk
          refine ⟨by simp only; rw [List.getElem?_set_ne hne]; exact h, ?_, rfl⟩
          have := answersTo_append { w with jobs := w.jobs.set k (j', true) } i k (j'.run C w.mem got)
          rw [if_neg hne, List.append_nil] at this
          exact this
        · exact ⟨h, rfl, rfl⟩
      obtain ⟨h1, h2, h3⟩ := ih _ key.1 hr'
      refine ⟨h1, h2.trans key.2.1, fun hw => ?_⟩
      rw [h3 (fun b x hm => hw b x (List.mem_cons_of_mem _ hm)), key.2.2]

/-- Nobody is answered before calling. -/
theorem no_early_answer (C : Crypto) (es : List AsyncEvent) (w : AsyncWorld) (i : Nat) (h0 : w.answersTo i = []) (hi : w.jobs.length + callsIn es ≤ i) :
    (w.steps C es).answersTo i = [] := by
  induction es generalizing w with
  | nil => exact h0
  | cons e es ih =>
    rw [AsyncWorld.steps]
    rw [callsIn_cons] at hi
    refine ih _ ?_ (by rw [step_jobs_length]; omega)
    cases e with
    | call j => exact h0
    | write b x => exact h0
    | run k got =>
      simp only [AsyncWorld.step]
      split
      · rename_i j' hk
        have hlt := (List.getElem?_eq_some_iff.1 hk).1
        have hne : k ≠ i := by omega
        have := answersTo_append { w with jobs := w.jobs.set k (j', true) } i k (j'.run C w.mem got)
        rw [if_neg hne, List.append_nil] at this
        exact this.trans h0
      · exact h0

/-- The program before any asynchronous call. -/
def AsyncWorld.start (mem : Nat → Bytes) : AsyncWorld := ⟨mem, [], []⟩

/-- **C90.** Over every execution, whatever else is called, written and scheduled: a call whose goroutine runs gets exactly one completion call, with the
result the synchronous function would have given for the message as it was when the asynchronous call was made — provided nobody writes to the message's
buffer before the goroutine runs (which the caller cannot see; what is missing). -/
theorem C90_answer_partial (C : Crypto) (mem : Nat → Bytes) (before mid after : List AsyncEvent) (j : AsyncJob) (got : Bytes)
    (hr : ∀ g, AsyncEvent.run (callsIn before) g ∉ mid) (hw : ∀ b x, AsyncEvent.write b x ∈ mid → j.buffer ≠ some b) :
    ∃ a, ((AsyncWorld.start mem).steps C (before ++ .call j :: (mid ++ .run (callsIn before) got :: after))).answersTo (callsIn before) = [a] ∧
      AnswerDue C (j.message ((AsyncWorld.start mem).steps C before).mem) got j a := by
  have hlen : ((AsyncWorld.start mem).steps C before).jobs.length = callsIn before := by rw [steps_jobs_length]; simp [AsyncWorld.start]
  have hearly : ((AsyncWorld.start mem).steps C before).answersTo (callsIn before) = [] :=
    no_early_answer C before _ _ rfl (by simp [AsyncWorld.start])
  rw [steps_append]
  generalize (AsyncWorld.start mem).steps C before = w at *
  generalize callsIn before = i at *
  rw [AsyncWorld.steps, steps_append]
  have h1 : (w.step C (.call j)).jobs[i]? = some (j, false) := by simp [AsyncWorld.step, ← hlen]
  obtain ⟨h2, h3, h4⟩ := pending_stays C mid _ i j h1 hr
  have h5 := h4 hw
  have h6 : (w.step C (.call j)).answersTo i = [] := hearly
  have h7 : (w.step C (.call j)).mem = w.mem := rfl
  rw [h6] at h3
  rw [h7] at h5
  generalize (w.step C (.call j)).steps C mid = w1 at *
  rw [AsyncWorld.steps]
  have hlt := (List.getElem?_eq_some_iff.1 h2).1
  have hs : w1.step C (.run i got) = { w1 with jobs := w1.jobs.set i (j, true), answers := w1.answers ++ [(i, j.run C w1.mem got)] } := by
    simp only [AsyncWorld.step, h2]
  rw [hs, done_stays C after _ i j (by simp [hlt])]
  refine ⟨j.run C w1.mem got, ?_, ?_⟩
  · have := answersTo_append { w1 with jobs := w1.jobs.set i (j, true) } i i (j.run C w1.mem got)
    rw [if_pos rfl] at this
    refine this.trans ?_
    show w1.answersTo i ++ _ = _
    rw [h3]
    rfl
  · rw [← h5]
    exact run_due C w1.mem got j

/-- **C90 (at most once).** No call is answered twice, whatever is written in the meantime, and none before its goroutine runs. -/
theorem C90_at_most_once (C : Crypto) (mem : Nat → Bytes) (es : List AsyncEvent) (i : Nat) :
    (((AsyncWorld.start mem).steps C es).answersTo i).length ≤ 1 ∧
    ((∀ got, AsyncEvent.run i got ∉ es) → ((AsyncWorld.start mem).steps C es).answersTo i = []) := by
  have inv : ∀ (es : List AsyncEvent) (w : AsyncWorld), (w.answersTo i = [] ∨ (w.answersTo i).length = 1 ∧ ∃ j, w.jobs[i]? = some (j, true)) →
      ((w.steps C es).answersTo i).length ≤ 1 ∧ ((∀ got, AsyncEvent.run i got ∉ es) → (w.steps C es).answersTo i = w.answersTo i) := by
    intro es
    induction es with
    | nil => intro w h; refine ⟨?_, fun _ => rfl⟩; rcases h with h | ⟨h, -⟩ <;> simp [AsyncWorld.steps, h]
    | cons e es ih =>
      intro w h
      rcases h with h | ⟨h, j, hj⟩
      · rw [AsyncWorld.steps]
        cases e with
        | call j => obtain ⟨a, b⟩ := ih (w.step C (.call j)) (.inl h); exact ⟨a, fun hr => b fun g hg => hr g (List.mem_cons_of_mem _ hg)⟩
        | write b x => obtain ⟨a, b⟩ := ih (w.step C (.write b x)) (.inl h); exact ⟨a, fun hr => b fun g hg => hr g (List.mem_cons_of_mem _ hg)⟩
        | run k got =>
          simp only [AsyncWorld.step]
          split
          · rename_i j' hk
            have hlt := (List.getElem?_eq_some_iff.1 hk).1
            have hap := answersTo_append { w with jobs := w.jobs.set k (j', true) } i k (j'.run C w.mem got)
            have h' : AsyncWorld.answersTo { w with jobs := w.jobs.set k (j', true) } i = [] := h
            rw [h'] at hap
            by_cases hki : k = i
            · subst hki
              rw [if_pos rfl] at hap
              refine ⟨(ih _ (.inr ⟨by rw [hap]; rfl, j', by simp [hlt]⟩)).1, fun hr => absurd (List.mem_cons_self) (hr got)⟩
            · rw [if_neg hki] at hap
              obtain ⟨a, b⟩ := ih _ (.inl hap)
              exact ⟨a, fun hr => (b fun g hg => hr g (List.mem_cons_of_mem _ hg)).trans (hap.trans h.symm)⟩
          · obtain ⟨a, b⟩ := ih w (.inl h); exact ⟨a, fun hr => b fun g hg => hr g (List.mem_cons_of_mem _ hg)⟩
      · have := done_stays C (e :: es) w i j hj
        exact ⟨by rw [this, h]; omega, fun _ => this⟩
  exact inv es _ (.inl rfl)

/-- **C90 (what is missing).** A caller that reuses its buffer once the call has returned gets an answer about other bytes: a valid signature is reported
invalid, an invalid one valid, and the signature handed over is one of a message the caller did not ask to sign. -/
theorem C90_buffer_reused_false (C : Crypto) (mem : Nat → Bytes) (buf : Nat) (m' got : Bytes) (key priv : Key32) (sig : Sig64) :
    (C.verify key (mem buf) sig = true → C.verify key m' sig = false →
      ((AsyncWorld.start mem).steps C [.call (.verify key buf sig), .write buf m', .run 0 got]).answersTo 0 = [.failed]) ∧
    (C.verify key (mem buf) sig = false → C.verify key m' sig = true →
      ((AsyncWorld.start mem).steps C [.call (.verify key buf sig), .write buf m', .run 0 got]).answersTo 0 = [.valid true]) ∧
    (calculateSignatureFrom C priv m' got ≠ zeroSig →
      ((AsyncWorld.start mem).steps C [.call (.sign priv buf), .write buf m', .run 0 got]).answersTo 0 = [.signature (calculateSignatureFrom C priv m' got)]) := by
  refine ⟨fun _ h => ?_, fun _ h => ?_, fun h => ?_⟩ <;>
    simp [AsyncWorld.start, AsyncWorld.steps, AsyncWorld.step, AsyncWorld.answersTo, AsyncJob.run, h]

/-! A concrete execution: three calls, their goroutines run in another order, another buffer is written in between. -/
section
open Toy
private def theMem : Nat → Bytes := fun n => if n = 1 then [1, 2, 3] else [9]
private def priv : Key32 := sliceToArray 32 (List.replicate 32 64)
private def theSig : Sig64 := calculateSignatureFrom C priv [1, 2, 3] (List.replicate 64 5)
private def story : List AsyncEvent :=
  [.call .identity, .call (.verify (C.basePub priv) 1 theSig), .write 2 [7], .call (.sign priv 1), .run 2 (List.replicate 64 5), .run 1 [], .run 0 []]
private def ok (i : Nat) (a : AsyncAnswer) : Bool := match i, a with
  | 0, .failed => true
  | 1, .valid true => true
  | 2, .signature s => s = theSig
  | _, _ => false
set_option maxRecDepth 100000 in
example : (((AsyncWorld.start theMem).steps C story).answers.map fun x => (x.1, ok x.1 x.2)) = [(2, true), (1, true), (0, true)] := by decide +kernel
end

end Verif

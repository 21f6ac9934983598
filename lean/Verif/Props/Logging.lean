import Verif.Spec.LogSpec
/-
C88: the logger.
-/
set_option linter.unusedSimpArgs false
namespace Verif
open LogSpec

/-! ### Splitting and searching -/

theorem splitComma_ne (s : Bytes) : splitComma s ≠ [] := by
  cases s with
  | nil => simp [splitComma]
  | cons c s =>
    rw [splitComma]
    split
    · simp
    · split <;> simp

theorem inter_cons (p : Bytes) (ps : List Bytes) (h : ps ≠ []) : [44].intercalate (p :: ps) = p ++ 44 :: [44].intercalate ps := by
  cases ps with
  | nil => exact absurd rfl h
  | cons q qs => simp [List.intercalate, List.intersperse]

theorem splitComma_cons (c : UInt8) (s : Bytes) : splitComma (c :: s) = if c = 44 then [] :: splitComma s else
    match splitComma s with
    | [] => [[c]]
    | p :: ps => (c :: p) :: ps := rfl

theorem splitComma_pieces (s : Bytes) : Pieces s (splitComma s) := by
  induction s with
  | nil => exact ⟨by simp [splitComma], by simp [splitComma, List.intercalate], by simp [splitComma]⟩
  | cons c s ih =>
    refine ⟨splitComma_ne _, ?_, ?_⟩
    · rw [splitComma_cons]
      split
      · rename_i hc
        rw [inter_cons _ _ (splitComma_ne s), ih.2.1, hc]
        rfl
      · rename_i hc
        split
        · rename_i h; exact absurd h (splitComma_ne s)
        · rename_i p ps h
          have := ih.2.1
          rw [h] at this
          cases ps with
          | nil => simp only [List.intercalate, List.intersperse, List.flatten_cons, List.flatten_nil, List.append_nil] at this ⊢; rw [this]
          | cons q qs => rw [inter_cons _ _ (by simp)] at this ⊢; rw [← this]; rfl
    · rw [splitComma_cons]
      split
      · intro p hp
        cases hp with
        | head => simp
        | tail _ hp => exact ih.2.2 p hp
      · rename_i hc
        split
        · rename_i h; exact absurd h (splitComma_ne s)
        · rename_i p ps h
          have h3 := ih.2.2
          rw [h] at h3
          intro q hq
          cases hq with
          | head =>
            have := h3 p (by simp)
            simp only [List.mem_cons, not_or]
            exact ⟨fun e => hc e.symm, this⟩
          | tail _ hq => exact h3 q (List.mem_cons_of_mem _ hq)

/-- The pieces are determined by the settings. -/
theorem pieces_unique : ∀ (ps : List Bytes) (s : Bytes), Pieces s ps → ps = splitComma s
  | [], s, h => absurd rfl h.1
  | [p], s, h => by
    have h2 : p = s := by have := h.2.1; simpa [List.intercalate, List.intersperse] using this
    subst h2
    have hp : 44 ∉ p := h.2.2 p (by simp)
    clear h
    induction p with
    | nil => simp [splitComma]
    | cons c p ih =>
      simp only [List.mem_cons, not_or] at hp
      rw [splitComma_cons, if_neg (fun e => hp.1 e.symm), ← ih hp.2]
  | p :: q :: qs, s, h => by
    have h2 := h.2.1
    rw [inter_cons _ _ (by simp)] at h2
    have hr := pieces_unique (q :: qs) ([44].intercalate (q :: qs)) ⟨by simp, rfl, fun x hx => h.2.2 x (by simp [List.mem_cons.mp hx])⟩
    have hp : 44 ∉ p := h.2.2 p (by simp)
    rw [← h2]
    generalize [44].intercalate (q :: qs) = t at hr
    rw [hr]
    clear h h2 hr
    induction p with
    | nil => simp [splitComma_cons]
    | cons c p ih =>
      simp only [List.mem_cons, not_or] at hp
      rw [List.cons_append, splitComma_cons, if_neg (fun e => hp.1 e.symm), ← ih hp.2]

theorem contains_iff (sub s : Bytes) : contains sub s = true ↔ sub <:+: s := by
  induction s with
  | nil => simp [contains]
  | cons c s ih => rw [contains, Bool.or_eq_true, ih, List.isPrefixOf_iff_prefix, List.infix_cons_iff]

theorem shouldLog_iff (caller : Bytes) (ns : List Bytes) : shouldLog caller ns = true ↔ ∃ n ∈ ns, n = ascii "all" ∨ n <:+: caller := by
  have : ∀ (ns : List Bytes) (b : Bool), ns.foldl (fun acc n =>
      let acc := if n = ascii "all" then true else acc
      if contains n caller then true else acc) b = true ↔ b = true ∨ ∃ n ∈ ns, n = ascii "all" ∨ n <:+: caller := by
    intro ns
    induction ns with
    | nil => simp
    | cons n ns ih =>
      intro b
      rw [List.foldl_cons, ih]
      simp only [← contains_iff, List.mem_cons, exists_eq_or_imp]
      by_cases h1 : n = ascii "all" <;> by_cases h2 : contains n caller = true <;> simp [h1, h2]
  rw [shouldLog, this]
  simp

theorem names_iff (t caller : Bytes) : Names t caller ↔ shouldLog caller (splitComma t) = true := by
  rw [shouldLog_iff]
  constructor
  · rintro ⟨ps, hp, h⟩; rw [← pieces_unique ps t hp]; exact h
  · intro h; exact ⟨_, splitComma_pieces t, h⟩

/-! ### Histories -/

/-- The variable after some calls, the latest first. -/
def sinkAfter : List LogOp → Option Sink
  | [] => none
  | o :: before => (o.run (sinkAfter before)).2

/-- How the variable agrees with the history. -/
def SinkIs (before : List LogOp) (s : Option Sink) : Prop :=
  match inUse before with
  | some n => s = some (.custom n)
  | none => ∃ ns, ensureLogger s = .default ns ∧
    match settings before with
    | some t => ns = some (splitComma t)
    | none => ensureNamespaces ns = [ascii "all"]

theorem sinkAfter_is (before : List LogOp) : SinkIs before (sinkAfter before) := by
  induction before with
  | nil => exact ⟨none, rfl, rfl⟩
  | cons o before ih =>
    cases o with
    | setup n =>
      cases n with
      | some n => exact rfl
      | none => exact ⟨none, rfl, rfl⟩
    | log l c m =>
      simp only [SinkIs, inUse, settings, sinkAfter, LogOp.run] at ih ⊢
      cases h : inUse before with
      | some n => simp only [h] at ih ⊢; rw [ih]; rfl
      | none =>
        simp only [h] at ih ⊢
        obtain ⟨ns, h1, h2⟩ := ih
        rw [h1]
        cases l
        · exact ⟨ns, rfl, h2⟩
        · exact ⟨ns, rfl, h2⟩
        all_goals
          refine ⟨some (ensureNamespaces ns), rfl, ?_⟩
          cases h3 : settings before with
          | some t => simp only [h3] at h2 ⊢; rw [h2]; rfl
          | none => simp only [h3] at h2 ⊢; rw [h2]; rfl
    | configure t =>
      simp only [SinkIs, inUse, settings, sinkAfter, LogOp.run] at ih ⊢
      cases h : inUse before with
      | some n => simp only [h] at ih ⊢; rw [ih]; rfl
      | none =>
        simp only [h] at ih ⊢
        obtain ⟨ns, h1, h2⟩ := ih
        rw [h1]
        exact ⟨_, rfl, rfl⟩

theorem log_produces (before : List LogOp) (l : Level) (c m : Bytes) : Produces before l c m (LogOp.run (sinkAfter before) (.log l c m)).1 := by
  have h := sinkAfter_is before
  unfold SinkIs at h
  unfold Produces
  cases h0 : inUse before with
  | some n => simp only [h0] at h ⊢; rw [h]; rfl
  | none =>
    simp only [h0] at h ⊢
    obtain ⟨ns, h1, h2⟩ := h
    have key : (∀ t, settings before = some t → Names t c) ↔ shouldLog c (ensureNamespaces ns) = true := by
      cases h3 : settings before with
      | some t => simp only [h3] at h2; rw [h2]; simp [names_iff, ensureNamespaces]
      | none => simp only [h3] at h2; rw [h2]; simp [shouldLog_iff]
    rw [key]
    simp only [LogOp.run, h1]
    cases l <;> simp [Sink.log] <;> cases shouldLog c (ensureNamespaces ns) <;> simp

/-- **C88 (any history).** From the start of the program, over every history of calls of `Setup`, `Configure` and the log functions, each log call
produces exactly what the history says: a call on the installed logger, a printed line, or nothing. -/
theorem C88_history_partial (ops : List LogOp) (i : Nat) (l : Level) (c m : Bytes) (h : ops[i]? = some (.log l c m)) :
    ∃ out, (runLog none ops).1[i]? = some out ∧ Produces (ops.take i).reverse l c m out := by
  have gen : ∀ (ops : List LogOp) (before : List LogOp) (i : Nat), ops[i]? = some (.log l c m) →
      ∃ out, (runLog (sinkAfter before) ops).1[i]? = some out ∧ Produces ((ops.take i).reverse ++ before) l c m out := by
    intro ops
    induction ops with
    | nil => intro _ i h; simp at h
    | cons o os ih =>
      intro before i h
      cases i with
      | zero =>
        simp only [List.getElem?_cons_zero, Option.some.injEq] at h
        subst h
        exact ⟨_, rfl, log_produces before l c m⟩
      | succ i =>
        obtain ⟨out, h1, h2⟩ := ih (o :: before) i (by simpa using h)
        refine ⟨out, ?_, by simpa using h2⟩
        simpa [runLog, sinkAfter] using h1
  have := gen ops [] i h
  simpa [sinkAfter] using this

/-- **C88 (what is missing, 1).** Settings with an empty piece (the empty string, a trailing comma) name every caller: `Configure("")`, which should silence
the logger, makes it print every warning and error. -/
theorem C88_silence_false (before : List LogOp) (hd : inUse before = none) (l : Level) (hl : l = .warning ∨ l = .error) (c m : Bytes) :
    (LogOp.run (sinkAfter (.configure [] :: before)) (.log l c m)).1 = [.printed l c m] ∧
    ∀ ps t, Pieces t ps → [] ∈ ps → (LogOp.run (sinkAfter (.configure t :: before)) (.log l c m)).1 = [.printed l c m] := by
  have key : ∀ ps t, Pieces t ps → [] ∈ ps → (LogOp.run (sinkAfter (.configure t :: before)) (.log l c m)).1 = [.printed l c m] := by
    intro ps t hp hm
    have h := log_produces (.configure t :: before) l c m
    unfold Produces at h
    simp only [inUse, hd] at h
    refine h.1 ⟨hl, ?_⟩
    intro t' ht'
    simp only [settings, Option.some.injEq] at ht'
    subst ht'
    exact ⟨ps, hp, [], hm, Or.inr (List.nil_infix)⟩
  exact ⟨key [[]] [] ⟨by simp, by simp [List.intercalate], by simp⟩ (by simp), key⟩

/-! ### Concurrent use -/

/-- **C88 (any schedule).** If a logger was installed before the goroutines start, then under every schedule of any number of goroutines making any calls
(installing other loggers included, nil excluded) nothing crashes, nothing is printed by the default logger, and every message goes to one of the installed
loggers. -/
theorem C88_installed_first_partial (n : Nat) (todo : Nat → List LogOp) (hnil : ∀ i, LogOp.setup none ∉ todo i) (sched : List Nat) :
    let w := LogWorld.run ⟨some (.custom n), fun _ => .start, todo, [], false⟩ sched
    w.crashed = false ∧ ∀ o ∈ w.out, ∃ k l c m, o = .handed k l c m ∧ (k = n ∨ ∃ i, LogOp.setup (some k) ∈ todo i) := by
  have gen : ∀ (sched : List Nat) (P : Nat → Prop) (w : LogWorld), (∃ n, P n ∧ w.logger = some (.custom n)) → (∀ i n, LogOp.setup (some n) ∈ w.todo i → P n) →
      (∀ i, LogOp.setup none ∉ w.todo i) → (∀ i, w.pc i ≠ .sawNil) → w.crashed = false → (∀ o ∈ w.out, ∃ k l c m, o = .handed k l c m ∧ P k) →
      (w.run sched).crashed = false ∧ ∀ o ∈ (w.run sched).out, ∃ k l c m, o = .handed k l c m ∧ P k := by
    intro sched
    induction sched with
    | nil => intro P w _ _ _ _ h5 h6; exact ⟨h5, h6⟩
    | cons i is ih =>
      intro P w h1 h2 h3 h4 h5 h6
      obtain ⟨k0, hk0, hl⟩ := h1
      have hmem : ∀ (x : LogOp) (j : Nat), x ∈ (w.step i).todo j → x ∈ w.todo j := by
        intro x j hx
        unfold LogWorld.step at hx
        split at hx
        · exact hx
        · rename_i k os ht
          simp only at hx
          by_cases hj : j = i
          · subst hj; rw [if_pos rfl] at hx; rw [ht]; exact List.mem_cons_of_mem _ hx
          · rw [if_neg hj] at hx; exact hx
        · rename_i o os _ ht
          split at hx
          · exact hx
          · exact hx
          · simp only at hx
            by_cases hj : j = i
            · subst hj; rw [if_pos rfl] at hx; rw [ht]; exact List.mem_cons_of_mem _ hx
            · rw [if_neg hj] at hx; exact hx
      have hstep : (∃ n, P n ∧ (w.step i).logger = some (.custom n)) ∧ (∀ j, (w.step i).pc j ≠ .sawNil) ∧ (w.step i).crashed = false ∧
          (∀ o ∈ (w.step i).out, ∃ k l c m, o = .handed k l c m ∧ P k) := by
        unfold LogWorld.step
        split
        · exact ⟨⟨k0, hk0, hl⟩, h4, h5, h6⟩
        · rename_i k os ht
          refine ⟨?_, h4, h5, h6⟩
          cases k with
          | none => exact absurd (by rw [ht]; simp) (h3 i)
          | some k => exact ⟨k, h2 i k (by rw [ht]; simp), rfl⟩
        · rename_i o os hne ht
          split
          · refine ⟨⟨k0, hk0, hl⟩, ?_, h5, h6⟩
            intro j
            show (if j = i then _ else _) ≠ _
            by_cases hj : j = i
            · rw [if_pos hj, hl]; simp
            · rw [if_neg hj]; exact h4 j
          · rename_i hp; exact absurd hp (h4 i)
          · have hpc : ∀ j, (if j = i then LogPc.start else w.pc j) ≠ .sawNil := by
              intro j
              by_cases hj : j = i
              · simp [hj]
              · rw [if_neg hj]; exact h4 j
            cases o with
            | setup k => exact absurd rfl (hne k)
            | log l c m =>
              refine ⟨⟨k0, hk0, by simp [hl, LogOp.run, ensureLogger, Sink.log]⟩, hpc, by simp [hl, h5], ?_⟩
              intro x hx
              simp only [hl, LogOp.run, ensureLogger, Sink.log, Option.getD_some, reduceCtorEq, if_false, List.mem_append, List.mem_singleton] at hx
              rcases hx with hx | hx
              · exact h6 x hx
              · exact ⟨k0, l, c, m, hx, hk0⟩
            | configure t =>
              refine ⟨⟨k0, hk0, by simp [hl, LogOp.run, ensureLogger, Sink.configure]⟩, hpc, by simp [hl, h5], ?_⟩
              intro x hx
              simp only [hl, LogOp.run, reduceCtorEq, if_false, List.mem_append, List.not_mem_nil, or_false] at hx
              exact h6 x hx
      exact ih P _ hstep.1 (fun j k hx => h2 j k (hmem _ j hx)) (fun j hx => h3 j (hmem _ j hx)) hstep.2.1 hstep.2.2.1 hstep.2.2.2
  exact gen sched (fun k => k = n ∨ ∃ i, LogOp.setup (some k) ∈ todo i) _ ⟨n, Or.inl rfl, rfl⟩ (fun i k h => Or.inr ⟨i, h⟩) hnil (by simp) rfl (by simp)

/-- **C88 (what is missing, 2).** When no logger was installed first, `Setup` can be undone: a goroutine that found no logger stores the default one after
another goroutine's `Setup` has returned.  From then on the installed logger gets nothing; the default logger prints. -/
theorem C88_setup_lost_false (n : Nat) (l : Level) (hl : l = .warning ∨ l = .error) (c m c' m' : Bytes) :
    ∃ sched, let w := LogWorld.run ⟨none, fun _ => .start, fun i => if i = 0 then [.log .debug c m] else if i = 1 then [.setup (some n), .log l c' m'] else [], [], false⟩ sched
      w.out = [.printed l c' m'] ∧ (∀ i, w.todo i = []) := by
  refine ⟨[0, 1, 0, 0, 1, 1], ?_⟩
  have hs : shouldLog c' [ascii "all"] = true := by rw [shouldLog_iff]; exact ⟨_, by simp, Or.inl rfl⟩
  refine ⟨?_, ?_⟩
  · rcases hl with hl | hl <;> subst hl <;>
      simp [LogWorld.run, LogWorld.step, LogOp.run, ensureLogger, Sink.log, ensureNamespaces, hs]
  · intro i
    by_cases h0 : i = 0
    · subst h0; simp [LogWorld.run, LogWorld.step, LogOp.run, ensureLogger, Sink.log]
    · by_cases h1 : i = 1
      · subst h1; simp [LogWorld.run, LogWorld.step, LogOp.run, ensureLogger, Sink.log]
      · simp [LogWorld.run, LogWorld.step, LogOp.run, ensureLogger, Sink.log, h0, h1]

/-- **C88 (what is missing, 3).** `Setup` of a nil logger while another goroutine is between the test and the method call crashes the program. -/
theorem C88_nil_setup_crash_false (n : Nat) (l : Level) (c m : Bytes) :
    ∃ sched, (LogWorld.run ⟨some (.custom n), fun _ => .start, fun i => if i = 0 then [.log l c m] else if i = 1 then [.setup none] else [], [], false⟩ sched).crashed = true :=
  ⟨[0, 1, 0], by simp [LogWorld.run, LogWorld.step]⟩

/-! A concrete history: a warning before any configuration is printed, one of an unnamed caller after it is not, a debug call reaches an installed logger. -/
section
private def story : List LogOp :=
  [.log .warning (ascii "cipher.go:211") (ascii "old"), .configure (ascii "curve.go,session.go"), .log .error (ascii "cipher.go:267") (ascii "mac"),
   .log .error (ascii "session.go:138") (ascii "nil"), .setup (some 5), .log .debug (ascii "cipher.go:352") (ascii "key"), .setup none, .log .debug (ascii "a") [],
   .log .error (ascii "cipher.go:267") (ascii "mac")]
example : (runLog none story).1 =
    [[.printed .warning (ascii "cipher.go:211") (ascii "old")], [], [], [.printed .error (ascii "session.go:138") (ascii "nil")], [],
     [.handed 5 .debug (ascii "cipher.go:352") (ascii "key")], [], [], [.printed .error (ascii "cipher.go:267") (ascii "mac")]] := by decide +kernel
end

end Verif

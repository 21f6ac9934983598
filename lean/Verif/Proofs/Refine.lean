import Verif.Proofs.Window
/- Receiving on a chain refines `Window.accept`. -/
set_option linter.unusedSimpArgs false
namespace Verif

/-- Limits of a session's receiving chain: 5000 ahead, 2000 remembered. -/
def sessionLimits : Window.Limits := ⟨5000, 2000⟩

/-- The chain `c`, which started from the chain key `ck0` with index 0, is in window `w`:
its chain key is the `w.next`-th one and its remembered keys are those of the skipped positions. -/
structure Refines (C : Crypto) (ck0 : ChainKey) (c : Chain) (w : Window) : Prop where
  start : ck0.index = 0
  key : c.chainKey = ck0.iter C w.next
  skipped : c.msgKeys = w.skipped.map (fun p => (ck0.iter C p).msgKeys C)
  bound : w.skipped.length ≤ maxMessageKeys
  below : ∀ p ∈ w.skipped, p < w.next
  nodup : w.skipped.Nodup

theorem ofNat_toNat_mod (p : Nat) : (UInt32.ofNat p).toNat = p % 2 ^ 32 := by simp

theorem Refines.index {C : Crypto} {ck0 : ChainKey} (h : ck0.index = 0) (p : Nat) :
    (ck0.iter C p).index.toNat = Window.counter p := by
  rw [ChainKey.iter_index, h, UInt32.zero_add, ofNat_toNat_mod]; rfl

theorem u32_beq_iff (a b : UInt32) : (a == b) = decide (a.toNat = b.toNat) := by
  by_cases h : a = b
  · subst h; simp
  · have : ¬ a.toNat = b.toNat := fun e => h (UInt32.toNat_inj.1 e)
    simp [this, h]

theorem nodup_range_map (a n : Nat) : ((List.range n).map (a + ·)).Nodup := by
  rw [List.nodup_iff_pairwise_ne, List.pairwise_map]
  exact List.pairwise_lt_range.imp (by intro x y h; omega)

theorem lastN_sublist {α : Type} (n : Nat) (l : List α) : (Window.lastN n l).Sublist l := List.drop_sublist _ _

/-- One receive step. -/
theorem recv_refines {C : Crypto} {ck0 : ChainKey} {c : Chain} {w : Window} (h : Refines C ck0 c w) (counter : UInt32) :
    match Window.accept sessionLimits w counter.toNat with
    | some (p, w') => ∃ c', c.recv C counter = (.ok ((ck0.iter C p).msgKeys C), c') ∧ Refines C ck0 c' w' ∧ c'.pair = c.pair
    | none => c.recv C counter =
        (.err (if counter.toNat < Window.counter w.next then .oldCounter else .tooFarFuture), c) := by
  have hidx : c.chainKey.index.toNat = Window.counter w.next := by rw [h.key]; exact Refines.index h.start _
  unfold Window.accept Chain.recv
  by_cases hlt : counter.toNat < Window.counter w.next
  · have hlt' : counter < c.chainKey.index := by rw [UInt32.lt_iff_toNat_lt, hidx]; exact hlt
    rw [if_pos hlt, if_pos hlt']
    have hpred : ∀ p, (((ck0.iter C p).msgKeys C).index == counter) = decide (Window.counter p = counter.toNat) := by
      intro p
      rw [u32_beq_iff, msgKeys_index, Refines.index h.start]
    have hfind : c.msgKeys.find? (fun k => k.index == counter) =
        (w.skipped.find? (fun p => decide (Window.counter p = counter.toNat))).map (fun p => (ck0.iter C p).msgKeys C) := by
      rw [h.skipped, List.find?_map]
      congr 2
      funext p
      exact hpred p
    rw [hfind]
    cases hs : w.skipped.find? (fun p => decide (Window.counter p = counter.toNat)) with
    | none => simp only [Option.map_none, if_pos hlt]
    | some p =>
      simp only [Option.map_some]
      refine ⟨_, rfl, ⟨h.start, h.key, ?_, ?_, ?_, ?_⟩, rfl⟩
      · show c.msgKeys.eraseP _ = _
        rw [h.skipped, List.eraseP_map]
        congr 2
        funext p
        exact hpred p
      · exact Nat.le_trans (List.eraseP_sublist.length_le) h.bound
      · intro q hq; exact h.below q (List.mem_of_mem_eraseP hq)
      · exact h.nodup.sublist List.eraseP_sublist
  · have hlt' : ¬ counter < c.chainKey.index := by rw [UInt32.lt_iff_toNat_lt, hidx]; exact hlt
    have hle : c.chainKey.index ≤ counter := UInt32.not_lt.1 hlt'
    have hsub : (counter - c.chainKey.index).toNat = counter.toNat - Window.counter w.next := by
      rw [UInt32.toNat_sub_of_le _ _ hle, hidx]
    have hfut : (maxFutureMessages < counter - c.chainKey.index) ↔ ¬ (counter.toNat - Window.counter w.next ≤ 5000) := by
      rw [UInt32.lt_iff_toNat_lt, hsub]
      show 5000 < _ ↔ _
      omega
    rw [if_neg hlt, if_neg hlt']
    by_cases hf : counter.toNat - Window.counter w.next ≤ 5000
    · rw [if_pos (show _ ≤ sessionLimits.future from hf), if_neg (by rw [hfut]; simpa using hf)]
      simp only [hsub]
      rw [show sessionLimits.memory = maxMessageKeys from rfl]
      generalize counter.toNat - Window.counter w.next = n
      refine ⟨⟨c.pair, (c.chainKey.iter C n).next C, pushSkipped C n c.chainKey c.msgKeys⟩, ?_, ⟨h.start, ?_, ?_, ?_, ?_, ?_⟩, rfl⟩
      · rw [h.key, ← ChainKey.iter_add]
      · show (c.chainKey.iter C n).next C = ck0.iter C (w.next + n + 1)
        rw [h.key, ← ChainKey.iter_add]; rfl
      · show pushSkipped C n c.chainKey c.msgKeys = _
        rw [pushSkipped_eq _ _ _ _ (by rw [h.skipped, List.length_map]; exact h.bound)]
        simp only
        rw [lastN_map, h.skipped, h.key]
        congr 1
        rw [List.map_append, List.map_map]
        congr 1
        apply List.map_congr_left
        intro i _
        simp [ChainKey.iter_add]
      · dsimp only
        exact lastN_length _ _
      · intro p hp
        dsimp only at hp
        have := (lastN_sublist _ _).subset hp
        simp only [List.mem_append, List.mem_map, List.mem_range] at this
        show p < w.next + n + 1
        rcases this with h1 | ⟨i, hi, rfl⟩
        · have := h.below p h1; omega
        · omega
      · apply List.Nodup.sublist (lastN_sublist _ _)
        rw [List.nodup_append]
        refine ⟨h.nodup, nodup_range_map _ _, ?_⟩
        intro a ha b hb
        have := h.below a ha
        simp only [List.mem_map, List.mem_range] at hb
        obtain ⟨i, _, rfl⟩ := hb
        omega
    · rw [if_neg (show ¬ _ ≤ sessionLimits.future from hf), if_pos (by rw [hfut]; exact hf)]
      simp only [if_neg hlt]

/-- A chain without remembered keys and index 0 is in the empty window. -/
theorem refines_new (C : Crypto) (pair : KeyPair) (ck : ChainKey) (h : ck.index = 0) :
    Refines C ck ⟨pair, ck, []⟩ Window.empty :=
  ⟨h, rfl, rfl, by simp [Window.empty], by simp [Window.empty], by simp [Window.empty]⟩

end Verif

import Verif.Proofs.Basic
/-
C48: byte helpers.
-/
namespace Verif

/-- **C48 (SplitThree).** For every input and lengths: the call fails exactly when the slice is
nil, a length is negative or the lengths exceed the input; otherwise the three parts have exactly the requested
lengths and their concatenation is the prefix of the input. It never panics. -/
theorem C48_splitThree (input : Option Bytes) (a b c : Int) :
    match splitThree input a b c with
    | .ok (x, y, z) => ∃ s, input = some s ∧ 0 ≤ a ∧ 0 ≤ b ∧ 0 ≤ c ∧ a + b + c ≤ s.length ∧
        (x.length : Int) = a ∧ (y.length : Int) = b ∧ (z.length : Int) = c ∧
        x ++ y ++ z = s.take (a + b + c).toNat
    | .err e => e = .inputTooSmall ∧
        (input = none ∨ a < 0 ∨ b < 0 ∨ c < 0 ∨ ∃ s, input = some s ∧ (s.length : Int) < a + b + c)
    | .panic => False := by
  cases input with
  | none => simp [splitThree]
  | some s =>
    simp only [splitThree]
    split
    · rename_i h
      split at h <;> rename_i hh
      · simp at h
      · simp only [Res.ok.injEq, Prod.mk.injEq] at h
        obtain ⟨rfl, rfl, rfl⟩ := h
        obtain ⟨a, rfl⟩ := Int.eq_ofNat_of_zero_le (a := a) (by omega)
        obtain ⟨b, rfl⟩ := Int.eq_ofNat_of_zero_le (a := b) (by omega)
        obtain ⟨c, rfl⟩ := Int.eq_ofNat_of_zero_le (a := c) (by omega)
        have e1 : ((a : Int) + b).toNat = a + b := by omega
        have e2 : ((a : Int) + b + c).toNat = a + b + c := by omega
        refine ⟨s, rfl, by omega, by omega, by omega, by omega, ?_, ?_, ?_, ?_⟩
        · simp; omega
        · simp; omega
        · rw [copyInto_length]; simp
        · rw [e1, e2, copyInto_take _ _ (by simp; omega)]
          simp only [Int.toNat_natCast, List.append_assoc]
          rw [show a + b + c = a + (b + c) by omega, List.take_add, List.take_add, List.drop_drop]
    · rename_i h
      split at h <;> rename_i hh
      · simp at h; subst h
        refine ⟨rfl, ?_⟩
        rcases hh with h | h | h | h
        · exact .inr (.inl h)
        · exact .inr (.inr (.inl h))
        · exact .inr (.inr (.inr (.inl h)))
        · exact .inr (.inr (.inr (.inr ⟨s, rfl, h⟩)))
      · simp at h
    · rename_i h
      split at h <;> simp at h

/-- **C48 (Split).** For inputs long enough both parts are exact and reassemble to the prefix. -/
theorem C48_split (input : Bytes) (a b : Nat) (h : a + b ≤ input.length) :
    ∃ x y, split input a b = .ok (x, y) ∧ x.length = a ∧ y.length = b ∧ x ++ y = input.take (a + b) := by
  refine ⟨input.take a, copyInto b (input.drop a), ?_, by simp; omega, copyInto_length _ _, ?_⟩
  · rw [split, if_neg (by omega)]
  · rw [copyInto_take _ _ (by simp; omega), List.take_add]

/-- **C48 (Split) fails by crashing** when the input is shorter than the first part, and returns
zero-padded data instead of an error when only the second part is short: the "fails for inputs
that are too short" clause does not hold for the two-part split. -/
theorem C48_split_short_false :
    (∀ (input : Bytes) (a b : Nat), input.length < a → split input a b = .panic) ∧
    (∀ (input : Bytes) (a b : Nat), a ≤ input.length → input.length < a + b →
      ∃ k, 0 < k ∧ split input a b = .ok (input.take a, input.drop a ++ List.replicate k 0)) := by
  refine ⟨fun input a b h => by simp [split, h], fun input a b h h' => ⟨b - (input.length - a), by omega, ?_⟩⟩
  rw [split, if_neg (by omega), copyInto, List.take_of_length_le (l := input.drop a) (by simp; omega)]
  simp

/-- **C48 (Trim).** -/
theorem C48_trim (input : Bytes) (n : Nat) (h : n ≤ input.length) :
    ∃ x, trim input n = .ok x ∧ x.length = n ∧ x = input.take n :=
  ⟨input.take n, by simp [trim]; omega, by simp; omega, rfl⟩

/-- **C48 (array conversion).** Converting a slice of the right length to an array and back
preserves it, for both array sizes. -/
theorem C48_sliceToArray (n : Nat) (b : Bytes) (h : b.length = n) : (sliceToArray n b).bytes = b :=
  copyInto_self h

example : splitThree (some [1,2,3,4,5,6]) 1 3 2 = .ok ([1],[2,3,4],[5,6]) ∧
    splitThree (some [1,2]) 1 (-7) 8 = .err .inputTooSmall ∧ split [1,2,3] 1 2 = .ok ([1],[2,3]) ∧
    split [1,2,3] 2 3 = .ok ([1,2],[3,0,0]) := by decide

end Verif

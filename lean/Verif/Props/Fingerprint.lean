import Verif.Model.Fingerprint
import Verif.Props.Text
/-
C109: what comparing fingerprints establishes.
-/
namespace Verif

/-- The numbers a fingerprint is shown as: its first six groups of five bytes, each modulo 100000. -/
def shownNumbers (fp : Bytes) : List Nat := (List.range 6).map fun i => beVal ((fp.drop (5 * i)).take 5) % 100000

/-- The getter `DisplayText` of a fingerprint object is `displayText`, and `Scan` is the empty text. -/
theorem fingerprintTexts_eq (a b : Bytes) : fingerprintTexts a b = (displayText a b).map fun t => (t, []) := by
  unfold fingerprintTexts newDisplay displayText newFingerprint
  cases displayStringFor a <;> simp
  cases displayStringFor b <;> simp [Display.text]

theorem sprintf05d_inj {m n : Nat} (hm : m < 100000) (hn : n < 100000) (h : sprintf05d m = sprintf05d n) : m = n := by
  rw [← (sprintf05d_spec hm).2.2, ← (sprintf05d_spec hn).2.2, h]

/-- The half of the text shown for one fingerprint. -/
theorem half_eq (fp : Bytes) (h : 30 ≤ fp.length) : displayStringFor fp = .ok ((shownNumbers fp).flatMap sprintf05d) := by
  simp only [displayStringFor, encodedChunk]
  rw [bytes5_ok fp 0 (by omega), bytes5_ok fp 5 (by omega), bytes5_ok fp 10 (by omega),
    bytes5_ok fp 15 (by omega), bytes5_ok fp 20 (by omega), bytes5_ok fp 25 (by omega)]
  simp [shownNumbers, show List.range 6 = [0, 1, 2, 3, 4, 5] from rfl]

theorem flat_inj : ∀ (a b : List Nat), (∀ x ∈ a, x < 100000) → (∀ x ∈ b, x < 100000) → a.flatMap sprintf05d = b.flatMap sprintf05d → a = b
  | [], [], _, _, _ => rfl
  | [], y :: b, _, hb, h => by
    have := (sprintf05d_spec (hb y (by simp))).1
    have := congrArg List.length h
    rw [List.flatMap_cons, List.flatMap_nil, List.length_append, List.length_nil] at this; omega
  | x :: a, [], ha, _, h => by
    have := (sprintf05d_spec (ha x (by simp))).1
    have := congrArg List.length h
    rw [List.flatMap_cons, List.flatMap_nil, List.length_append, List.length_nil] at this; omega
  | x :: a, y :: b, ha, hb, h => by
    have lx := (sprintf05d_spec (ha x (by simp))).1
    have ly := (sprintf05d_spec (hb y (by simp))).1
    rw [List.flatMap_cons, List.flatMap_cons] at h
    obtain ⟨h1, h2⟩ := List.append_inj h (by rw [lx, ly])
    rw [sprintf05d_inj (ha x (by simp)) (hb y (by simp)) h1,
      flat_inj a b (fun z hz => ha z (List.mem_cons_of_mem _ hz)) (fun z hz => hb z (List.mem_cons_of_mem _ hz)) h2]

theorem shown_lt (fp : Bytes) : ∀ x ∈ shownNumbers fp, x < 100000 := by
  intro x hx
  obtain ⟨i, -, rfl⟩ := List.mem_map.1 hx
  exact Nat.mod_lt _ (by decide)

theorem shown_flat_length (fp : Bytes) : ((shownNumbers fp).flatMap sprintf05d).length = 30 := by
  have : ∀ l : List Nat, (∀ x ∈ l, x < 100000) → (l.flatMap sprintf05d).length = 5 * l.length := by
    intro l hl
    induction l with
    | nil => rfl
    | cons x l ih =>
      have := ih fun z hz => hl z (List.mem_cons_of_mem _ hz)
      have := (sprintf05d_spec (hl x (by simp))).1
      simp at *; omega
  rw [this _ (shown_lt fp)]
  simp [shownNumbers]

/-- **C109 (what equal texts mean).** Two pairs of fingerprints are displayed alike exactly when they show the same two sixes of numbers, in either order. -/
theorem C109_same_text_iff (a b c d : Bytes) (ha : 30 ≤ a.length) (hb : 30 ≤ b.length) (hc : 30 ≤ c.length) (hd : 30 ≤ d.length) :
    displayText a b = displayText c d ↔ (shownNumbers a = shownNumbers c ∧ shownNumbers b = shownNumbers d) ∨ (shownNumbers a = shownNumbers d ∧ shownNumbers b = shownNumbers c) := by
  constructor
  · intro h
    simp only [displayText, half_eq a ha, half_eq b hb, half_eq c hc, half_eq d hd, Res.bind_ok, Res.map_ok, Res.ok.injEq] at h
    have inj : ∀ {w x y z : Bytes}, (shownNumbers w).flatMap sprintf05d ++ (shownNumbers x).flatMap sprintf05d = (shownNumbers y).flatMap sprintf05d ++ (shownNumbers z).flatMap sprintf05d →
        shownNumbers w = shownNumbers y ∧ shownNumbers x = shownNumbers z := by
      intro w x y z h
      obtain ⟨h1, h2⟩ := List.append_inj h (by rw [shown_flat_length, shown_flat_length])
      exact ⟨flat_inj _ _ (shown_lt _) (shown_lt _) h1, flat_inj _ _ (shown_lt _) (shown_lt _) h2⟩
    split at h <;> split at h <;> have := inj h <;> simp [this.1, this.2]
  · rintro (⟨h1, h2⟩ | ⟨h1, h2⟩)
    · simp only [displayText, half_eq a ha, half_eq b hb, half_eq c hc, half_eq d hd, h1, h2]
    · rw [C34_display_symmetric c d]
      simp only [displayText, half_eq a ha, half_eq b hb, half_eq c hc, half_eq d hd, h1, h2]

/-- **C109 (comparing fingerprints).** `gen` gives the fingerprint of a user (identifier and identity key) and shows different users as different numbers.  Two different users compare texts: `own`
displays herself and the user she believes to talk to, and so does `own'`.  If the texts agree, each of them believes to talk to who the other is; if the beliefs are right, the texts agree. -/
theorem C109_compare_partial {X : Type} (gen : X → Bytes) (hl : ∀ x, 30 ≤ (gen x).length) (hg : ∀ x y, shownNumbers (gen x) = shownNumbers (gen y) → x = y)
    (own believed own' believed' : X) (hne : own ≠ own') :
    fingerprintTexts (gen own) (gen believed) = fingerprintTexts (gen own') (gen believed') ↔ believed = own' ∧ believed' = own := by
  have e : ∀ a b c d : Bytes, fingerprintTexts a b = fingerprintTexts c d ↔ displayText a b = displayText c d := by
    intro a b c d
    rw [fingerprintTexts_eq, fingerprintTexts_eq]
    constructor
    · intro h
      cases h1 : displayText a b <;> cases h2 : displayText c d <;> rw [h1, h2] at h <;> simp_all
    · intro h; rw [h]
  rw [e, C109_same_text_iff _ _ _ _ (hl _) (hl _) (hl _) (hl _)]
  constructor
  · rintro (⟨h, -⟩ | ⟨h1, h2⟩)
    · exact absurd (hg _ _ h) hne
    · exact ⟨hg _ _ h2, (hg _ _ h1).symm⟩
  · rintro ⟨rfl, rfl⟩
    exact .inr ⟨rfl, rfl⟩

/-- A generator for sixteen users. -/
def demoGen (x : Fin 16) : Bytes := [0, 0, 0, 9, UInt8.ofNat x.val] ++ List.replicate 28 7

/-- The hypotheses of the comparison are met, and a wrong belief shows. -/
example : (∀ x, 30 ≤ (demoGen x).length) ∧ (∀ x y, shownNumbers (demoGen x) = shownNumbers (demoGen y) → x = y) ∧
    fingerprintTexts (demoGen 3) (demoGen 7) = fingerprintTexts (demoGen 7) (demoGen 3) ∧ fingerprintTexts (demoGen 3) (demoGen 8) ≠ fingerprintTexts (demoGen 7) (demoGen 3) := by
  have hl : ∀ x, 30 ≤ (demoGen x).length := fun x => by simp [demoGen]
  have hg : ∀ x y, shownNumbers (demoGen x) = shownNumbers (demoGen y) → x = y := by decide +kernel
  refine ⟨hl, hg, (C109_compare_partial demoGen hl hg 3 7 7 3 (by decide)).2 ⟨rfl, rfl⟩, fun h => ?_⟩
  exact absurd ((C109_compare_partial demoGen hl hg 3 8 7 3 (by decide)).1 h).1 (by decide)

/-- **C109 is false in general: only 30 bytes count.** What follows the first 30 bytes of a fingerprint is not shown. -/
theorem C109_tail_ignored_false (fp s t other : Bytes) (h : fp.length = 30) : fingerprintTexts (fp ++ s) other = fingerprintTexts (fp ++ t) other := by
  have key : ∀ s : Bytes, shownNumbers (fp ++ s) = shownNumbers fp := by
    intro s
    apply List.map_congr_left
    intro i hi
    have := List.mem_range.1 hi
    rw [List.drop_append_of_le_length (by omega), List.take_append_of_le_length (by simp; omega)]
  rw [fingerprintTexts_eq, fingerprintTexts_eq]
  simp only [displayText, half_eq (fp ++ s) (by simp; omega), half_eq (fp ++ t) (by simp; omega), key]

/-- **C109 is false: identity keys as fingerprints.** When the serialised identity key itself is displayed, every key has a companion with other bytes that is displayed alike with everyone. -/
theorem C109_key_as_fingerprint_false (k : Key32) : ∃ k' : Key32, k' ≠ k ∧ ∀ other, fingerprintTexts (serPub k) other = fingerprintTexts (serPub k') other := by
  obtain ⟨b, hb⟩ := k
  obtain ⟨p, x, rfl⟩ : ∃ p x, b = p ++ [x] := by
    refine ⟨b.dropLast, b.getLast (by intro h; simp [h] at hb), (List.dropLast_concat_getLast _).symm⟩
  have hp : p.length = 31 := by simpa using hb
  refine ⟨⟨p ++ [x + 1], by simp [hp]⟩, ?_, fun other => ?_⟩
  · intro h
    have := (Arr.mk.injEq ..).mp h
    simp at this
  · have e : ∀ y : UInt8, djbType :: (p ++ [y]) = (djbType :: p.take 29) ++ (p.drop 29 ++ [y]) := by
      intro y; rw [List.cons_append, ← List.append_assoc, List.take_append_drop]
    simp only [serPub, e]
    exact C109_tail_ignored_false _ _ _ _ (by simp; omega)

/-- A number below 2^40 as five bytes, most significant first. -/
def be5 (w : Nat) : Bytes := [UInt8.ofNat (w / 256 / 256 / 256 / 256), UInt8.ofNat (w / 256 / 256 / 256 % 256), UInt8.ofNat (w / 256 / 256 % 256), UInt8.ofNat (w / 256 % 256), UInt8.ofNat (w % 256)]

theorem be5_val (w : Nat) (h : w < 2 ^ 40) : beVal (be5 w) = w := by
  simp only [be5, beVal, List.foldl_cons, List.foldl_nil, UInt8.toNat_ofNat']
  omega

theorem be5_length (w : Nat) : (be5 w).length = 5 := rfl

theorem be5_take (w : Nat) (r : Bytes) : (be5 w ++ r).take 5 = be5 w := List.take_left' (be5_length w)

theorem be5_drop (w : Nat) (r : Bytes) : (be5 w ++ r).drop 5 = r := List.drop_left' (be5_length w)

/-- **C109 is false: groups are shown modulo 100000.** Every fingerprint is displayed like one that differs from it in the first five bytes. -/
theorem C109_modulo_false (fp : Bytes) (h : 30 ≤ fp.length) :
    ∃ fp' : Bytes, fp'.length = fp.length ∧ fp'.take 5 ≠ fp.take 5 ∧ fp'.drop 5 = fp.drop 5 ∧ ∀ other, fingerprintTexts fp other = fingerprintTexts fp' other := by
  match fp, h with
  | x0 :: x1 :: x2 :: x3 :: x4 :: r, h =>
    have e0 := x0.toNat_lt; have e1 := x1.toNat_lt; have e2 := x2.toNat_lt; have e3 := x3.toNat_lt; have e4 := x4.toNat_lt
    obtain ⟨v, hv⟩ : ∃ v, v = (((x0.toNat * 256 + x1.toNat) * 256 + x2.toNat) * 256 + x3.toNat) * 256 + x4.toNat := ⟨_, rfl⟩
    obtain ⟨w, hw⟩ : ∃ w, w = if v < 100000 then v + 100000 else v % 100000 := ⟨_, rfl⟩
    have hne : w ≠ v := by rw [hw]; split <;> omega
    have hmod : w % 100000 = v % 100000 := by rw [hw]; split <;> omega
    have hlt : w < 2 ^ 40 := by rw [hw]; split <;> omega
    have hval := be5_val w hlt
    refine ⟨be5 w ++ r, by simp [be5_length]; omega, ?_, be5_drop w r, ?_⟩
    · intro h5
      apply hne
      rw [← hval, hv]
      have := congrArg beVal h5
      rw [be5_take] at this
      rw [this]; simp [beVal]
    · intro other
      have hs : shownNumbers (x0 :: x1 :: x2 :: x3 :: x4 :: r) = shownNumbers (be5 w ++ r) := by
        apply List.map_congr_left
        intro i _
        cases i with
        | zero =>
          rw [Nat.mul_zero, List.drop_zero, List.drop_zero, be5_take, hval, hmod, hv]
          simp [beVal]
        | succ i => rw [show 5 * (i + 1) = 5 + 5 * i by omega, ← List.drop_drop, ← List.drop_drop, be5_drop]; rfl
      rw [fingerprintTexts_eq, fingerprintTexts_eq]
      simp only [displayText, half_eq _ h, half_eq (be5 w ++ r) (by simp [be5_length] at h ⊢; omega), hs]

/-- **C109 is false: the scannable text.** `Scan` returns the empty text for every fingerprint, so that comparing it establishes nothing. -/
theorem C109_scan_false (a b : Bytes) (ha : 30 ≤ a.length) (hb : 30 ≤ b.length) : ∃ t, fingerprintTexts a b = .ok (t, []) := by
  rw [fingerprintTexts_eq, displayText, half_eq a ha, half_eq b hb]
  exact ⟨_, rfl⟩

/-- **C109 (a user and herself).** When both own fingerprints are the same, equal texts show only that the two beliefs agree: both may believe to talk to a third user. -/
theorem C109_same_owner_partial {X : Type} (gen : X → Bytes) (hl : ∀ x, 30 ≤ (gen x).length) (hg : ∀ x y, shownNumbers (gen x) = shownNumbers (gen y) → x = y) (own believed believed' : X) :
    displayText (gen own) (gen believed) = displayText (gen own) (gen believed') ↔ believed = believed' := by
  rw [C109_same_text_iff _ _ _ _ (hl _) (hl _) (hl _) (hl _)]
  constructor
  · rintro (⟨-, h⟩ | ⟨h1, h2⟩)
    · exact hg _ _ h
    · exact hg _ _ (h2.trans h1)
  · rintro rfl
    exact .inl ⟨rfl, rfl⟩

end Verif

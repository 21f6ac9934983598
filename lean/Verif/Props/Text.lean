import Verif.Model.Misc
import Verif.Proofs.Toy
/-
C34, C35: textual forms.
-/
set_option linter.unusedSimpArgs false
namespace Verif

theorem append_colon_inj {a b x y : Bytes} (hx : ∀ c ∈ x, isDigit c) (hy : ∀ c ∈ y, isDigit c)
    (h : a ++ [58] ++ x = b ++ [58] ++ y) : a = b ∧ x = y := by
  have key : ∀ (a b : Bytes), a ++ 58 :: x = b ++ 58 :: y → a = b ∧ x = y := by
    intro a
    induction a with
    | nil =>
      intro b h
      cases b with
      | nil => simp at h; exact ⟨rfl, h⟩
      | cons c b =>
        simp at h
        have := hx 58 (by rw [h.2]; simp)
        simp [isDigit] at this
    | cons d a ih =>
      intro b h
      cases b with
      | nil =>
        simp at h
        have := hy 58 (by rw [← h.2]; simp)
        simp [isDigit] at this
      | cons c b =>
        simp at h
        obtain ⟨h1, h2⟩ := ih b h.2
        exact ⟨by rw [h.1, h1], h2⟩
  exact key a b (by simpa using h)

/-- **C35.** The string form determines name and device id, for names of arbitrary bytes
(including ones containing the separator). -/
theorem C35_address_string_injective (n n' : Bytes) (d d' : UInt32)
    (h : addrBytes n d = addrBytes n' d') : n = n' ∧ d = d' := by
  obtain ⟨h1, h2⟩ := append_colon_inj (natDec_digits _) (natDec_digits _) h
  exact ⟨h1, UInt32.toNat_inj.1 (natDec_inj h2)⟩

/-- C35 for addresses whose names are Unicode strings. -/
theorem C35_address_injective (a b : Addr) (h : a.str = b.str) : a = b := by
  obtain ⟨h1, h2⟩ := C35_address_string_injective _ _ _ _ (h : addrBytes _ _ = addrBytes _ _)
  cases a; cases b
  simp only [Addr.mk.injEq]
  refine ⟨?_, h2⟩
  apply String.toByteArray_inj.1
  exact ByteArray.ext (Array.toList_inj.1 h1)

theorem hexDigit_inj {a b : Nat} (ha : a < 16) (hb : b < 16) (h : hexDigit a = hexDigit b) : a = b := by
  have key : ∀ a b : Fin 16, hexDigit a.val = hexDigit b.val → a = b := by decide +kernel
  exact congrArg Fin.val (key ⟨a, ha⟩ ⟨b, hb⟩ h)

theorem hexEncode_inj : ∀ {a b : Bytes}, hexEncode a = hexEncode b → a = b
  | [], [], _ => rfl
  | [], _ :: _, h => by simp [hexEncode] at h
  | _ :: _, [], h => by simp [hexEncode] at h
  | x :: xs, y :: ys, h => by
    simp [hexEncode] at h
    have e1 := hexDigit_inj (by have := x.toNat_lt; omega) (by have := y.toNat_lt; omega) h.1
    have e2 := hexDigit_inj (by omega) (by omega) h.2.1
    have : x = y := UInt8.toNat_inj.1 (by omega)
    rw [this, hexEncode_inj (a := xs) (b := ys) h.2.2]

/-- **C35 (identity fingerprints).** The fingerprint of an identity key has 66 characters and
determines the key. -/
theorem C35_identity_fingerprint (k k' : Key32) :
    (identityFingerprint k).length = 66 ∧ (identityFingerprint k = identityFingerprint k' → k = k') := by
  constructor
  · have : ∀ b, (hexEncode b).length = 2 * b.length := by
      intro b; induction b with
      | nil => rfl
      | cons x b ih => simp [hexEncode] at ih ⊢; omega
    rw [identityFingerprint, this, serPub_length]
  · intro h; exact serPub_inj (hexEncode_inj h)

/-- **C35 (identity fingerprints).** It is lower-case hexadecimal: byte i of the serialised key (the type byte 5, then the 32 bytes) gives characters 2i and
2i + 1. -/
theorem C35_identity_fingerprint_text (k : Key32) (i : Nat) (x : UInt8) (h : ((5 : UInt8) :: k.bytes)[i]? = some x) :
    (identityFingerprint k)[2 * i]? = (ascii "0123456789abcdef")[x.toNat / 16]? ∧
    (identityFingerprint k)[2 * i + 1]? = (ascii "0123456789abcdef")[x.toNat % 16]? := by
  have key : ∀ n : Fin 16, (ascii "0123456789abcdef")[n.val]? = some (hexDigit n.val) := by decide +kernel
  have hx := x.toNat_lt
  rw [key ⟨x.toNat / 16, by omega⟩, key ⟨x.toNat % 16, by omega⟩, identityFingerprint, serPub, show djbType = 5 from rfl]
  generalize (5 : UInt8) :: k.bytes = b at h
  induction b generalizing i with
  | nil => cases h
  | cons y b ih =>
    cases i with
    | zero =>
      simp only [List.getElem?_cons_zero, Option.some.injEq] at h
      subst h
      exact ⟨rfl, rfl⟩
    | succ i => exact ih i h

example : addrBytes [97, 58] 12 = [97, 58, 58, 49, 50] ∧ addrBytes [97] 0 ≠ addrBytes [97, 58, 48] 0 := by decide

/-! ### C34 -/

theorem sprintf05d_spec {n : Nat} (h : n < 100000) :
    (sprintf05d n).length = 5 ∧ (∀ x ∈ sprintf05d n, isDigit x) ∧ decVal (sprintf05d n) = n := by
  have hl : (natDec n).length ≤ 5 := natDec_length (k := 4) (by omega)
  refine ⟨by simp [sprintf05d]; omega, ?_, ?_⟩
  · intro x hx
    simp only [sprintf05d, List.mem_append, List.mem_replicate] at hx
    rcases hx with ⟨_, rfl⟩ | hx
    · simp [isDigit]
    · exact natDec_digits n x hx
  · have : ∀ k (b : Bytes), decVal (List.replicate k 48 ++ b) = decVal b := by
      intro k b
      induction k with
      | zero => simp
      | succ k ih => rw [List.replicate_succ, List.cons_append, decVal_cons, ih]; simp
    rw [sprintf05d, this, natDec_eq]

theorem or_step (y x k : Nat) (hx : x < 2 ^ 8) : y <<< (8 + k) ||| x <<< k = (y * 256 + x) <<< k := by
  rw [Nat.shiftLeft_add, ← Nat.shiftLeft_or_distrib, ← Nat.shiftLeft_add_eq_or_of_lt hx, Nat.shiftLeft_eq y 8]

theorem bytes5_ok (b : Bytes) (o : Nat) (h : o + 5 ≤ b.length) :
    bytes5ToInt64 b o = .ok (beVal ((b.drop o).take 5)) := by
  obtain ⟨p, r, rfl, hp⟩ : ∃ p r, b = p ++ r ∧ p.length = o := ⟨b.take o, b.drop o, by simp, by simp; omega⟩
  subst hp
  have h : 5 ≤ r.length := by simp only [List.length_append] at h; omega
  match r, h with
  | x0 :: x1 :: x2 :: x3 :: x4 :: r, _ =>
    have e1 := x1.toNat_lt; have e2 := x2.toNat_lt
    have e3 := x3.toNat_lt; have e4 := x4.toNat_lt
    simp only [bytes5ToInt64, List.getElem?_append_right (Nat.le_refl _),
      List.getElem?_append_right (Nat.le_add_right _ _), Nat.sub_self, Nat.add_sub_cancel_left,
      List.getElem?_cons_zero, List.getElem?_cons_succ, List.drop_left, List.take_succ_cons, List.take_zero,
      beVal, List.foldl_cons, List.foldl_nil, Res.ok.injEq]
    have s4 := or_step (((x0.toNat * 256 + x1.toNat) * 256 + x2.toNat) * 256 + x3.toNat) _ 0 e4
    rw [or_step _ _ 24 e1, or_step _ _ 16 e2, or_step _ _ 8 e3]
    simp only [Nat.shiftLeft_zero] at s4
    rw [s4]; simp

/-- The text of one fingerprint: six groups of five digits. -/
theorem displayStringFor_spec (fp : Bytes) (h : 30 ≤ fp.length) :
    ∃ c : Nat → Bytes, displayStringFor fp = .ok (c 0 ++ c 1 ++ c 2 ++ c 3 ++ c 4 ++ c 5) ∧
      ∀ i, i < 6 → (c i).length = 5 ∧ (∀ x ∈ c i, isDigit x) ∧
        decVal (c i) = beVal ((fp.drop (5 * i)).take 5) % 100000 := by
  refine ⟨fun i => sprintf05d (beVal ((fp.drop (5 * i)).take 5) % 100000), ?_, ?_⟩
  · simp only [displayStringFor, encodedChunk]
    rw [bytes5_ok fp 0 (by omega), bytes5_ok fp 5 (by omega), bytes5_ok fp 10 (by omega),
      bytes5_ok fp 15 (by omega), bytes5_ok fp 20 (by omega), bytes5_ok fp 25 (by omega)]
    simp
  · intro i _
    exact sprintf05d_spec (by omega)

theorem displayStringFor_short (fp : Bytes) (h : fp.length < 30) : displayStringFor fp = .panic := by
  have key : ∀ o, (∃ v, bytes5ToInt64 fp o = .ok v) ∨ bytes5ToInt64 fp o = .panic := by
    intro o; unfold bytes5ToInt64; split
    · exact .inl ⟨_, rfl⟩
    · exact .inr rfl
  have last : bytes5ToInt64 fp 25 = .panic := by
    unfold bytes5ToInt64
    rw [List.getElem?_eq_none (i := 25 + 4) (by omega)]
    split <;> first | rfl | simp_all
  simp only [displayStringFor, encodedChunk, last]
  rcases key 0 with ⟨_, h⟩ | h <;> rw [h] <;> try rfl
  rcases key 5 with ⟨_, h⟩ | h <;> rw [h] <;> try rfl
  rcases key 10 with ⟨_, h⟩ | h <;> rw [h] <;> try rfl
  rcases key 15 with ⟨_, h⟩ | h <;> rw [h] <;> try rfl
  rcases key 20 with ⟨_, h⟩ | h <;> rw [h] <;> rfl

theorem bytesLt_asymm : ∀ a b : Bytes, bytesLt a b = true → bytesLt b a = false
  | [], [], h => by simp [bytesLt] at h
  | [], _ :: _, _ => rfl
  | _ :: _, [], h => by simp [bytesLt] at h
  | x :: xs, y :: ys, h => by
    simp only [bytesLt] at h ⊢
    by_cases hxy : x < y
    · have : ¬ y < x := by rw [UInt8.lt_iff_toNat_lt] at *; omega
      simp [hxy, this]
    · by_cases hyx : y < x
      · simp [hxy, hyx] at h
      · simp [hxy, hyx] at h ⊢
        exact bytesLt_asymm xs ys h

theorem bytesLt_total : ∀ a b : Bytes, bytesLt a b = false → bytesLt b a = false → a = b
  | [], [], _, _ => rfl
  | [], _ :: _, h, _ => by simp [bytesLt] at h
  | _ :: _, [], _, h => by simp [bytesLt] at h
  | x :: xs, y :: ys, h, h' => by
    simp only [bytesLt] at h h'
    by_cases hxy : x < y
    · simp [hxy] at h
    · by_cases hyx : y < x
      · simp [hyx] at h'
      · simp [hxy, hyx] at h h'
        have : x = y := by
          rw [UInt8.lt_iff_toNat_lt] at *
          exact UInt8.toNat_inj.1 (by omega)
        rw [this, bytesLt_total xs ys h h']

/-- **C34 (symmetry).** Both parties display the same text, for all fingerprints. -/
theorem C34_display_symmetric (a b : Bytes) : displayText a b = displayText b a := by
  unfold displayText
  by_cases ha : a.length < 30
  · rw [displayStringFor_short a ha]
    by_cases hb : b.length < 30
    · rw [displayStringFor_short b hb]
    · obtain ⟨c, h, _⟩ := displayStringFor_spec b (by omega)
      rw [h]; rfl
  · obtain ⟨c, h, _⟩ := displayStringFor_spec a (by omega)
    by_cases hb : b.length < 30
    · rw [displayStringFor_short b hb, h]; rfl
    · obtain ⟨c', h', _⟩ := displayStringFor_spec b (by omega)
      rw [h, h']
      simp only [Res.bind_ok, Res.map_ok]
      generalize c 0 ++ c 1 ++ c 2 ++ c 3 ++ c 4 ++ c 5 = x
      generalize c' 0 ++ c' 1 ++ c' 2 ++ c' 3 ++ c' 4 ++ c' 5 = y
      cases hxy : bytesLt x y
      · cases hyx : bytesLt y x
        · rw [bytesLt_total x y hxy hyx]
        · simp
      · simp [bytesLt_asymm x y hxy]

/-- **C34 (shape).** For fingerprints of at least 30 bytes the text consists of exactly 60
decimal digits; it is the concatenation, in some order, of the two 30-digit strings whose
five-digit groups are the 5-byte big-endian groups modulo 100000. -/
theorem C34_display_shape (a b : Bytes) (ha : 30 ≤ a.length) (hb : 30 ≤ b.length) :
    ∃ t ta tb, displayText a b = .ok t ∧ t.length = 60 ∧ (∀ x ∈ t, isDigit x) ∧
      (t = ta ++ tb ∨ t = tb ++ ta) ∧ ta.length = 30 ∧ tb.length = 30 ∧
      (∀ i, i < 6 → decVal ((ta.drop (5 * i)).take 5) = beVal ((a.drop (5 * i)).take 5) % 100000) ∧
      (∀ i, i < 6 → decVal ((tb.drop (5 * i)).take 5) = beVal ((b.drop (5 * i)).take 5) % 100000) := by
  have one : ∀ fp : Bytes, 30 ≤ fp.length → ∃ t, displayStringFor fp = .ok t ∧ t.length = 30 ∧
      (∀ x ∈ t, isDigit x) ∧
      ∀ i, i < 6 → decVal ((t.drop (5 * i)).take 5) = beVal ((fp.drop (5 * i)).take 5) % 100000 := by
    intro fp hfp
    obtain ⟨c, h, hc⟩ := displayStringFor_spec fp hfp
    have l0 := (hc 0 (by omega)).1
    have l1 := (hc 1 (by omega)).1
    have l2 := (hc 2 (by omega)).1
    have l3 := (hc 3 (by omega)).1
    have l4 := (hc 4 (by omega)).1
    have l5 := (hc 5 (by omega)).1
    refine ⟨_, h, by simp; omega, ?_, ?_⟩
    · intro x hx
      simp only [List.mem_append] at hx
      rcases hx with ((((hx | hx) | hx) | hx) | hx) | hx
      · exact (hc 0 (by omega)).2.1 x hx
      · exact (hc 1 (by omega)).2.1 x hx
      · exact (hc 2 (by omega)).2.1 x hx
      · exact (hc 3 (by omega)).2.1 x hx
      · exact (hc 4 (by omega)).2.1 x hx
      · exact (hc 5 (by omega)).2.1 x hx
    · intro i hi
      rw [← (hc i hi).2.2]
      congr 1
      match i, hi with
      | 0, _ => simp [l0]
      | 1, _ => simp [List.take_append, List.drop_append, List.drop_of_length_le, List.take_of_length_le, l0, l1]
      | 2, _ => simp [List.take_append, List.drop_append, List.drop_of_length_le, List.take_of_length_le, l0, l1, l2]
      | 3, _ => simp [List.take_append, List.drop_append, List.drop_of_length_le, List.take_of_length_le, l0, l1, l2, l3]
      | 4, _ => simp [List.take_append, List.drop_append, List.drop_of_length_le, List.take_of_length_le, l0, l1, l2, l3, l4]
      | 5, _ => simp [List.take_append, List.drop_append, List.drop_of_length_le, List.take_of_length_le, l0, l1, l2, l3, l4, l5]
  obtain ⟨ta, h1, l1, d1, v1⟩ := one a ha
  obtain ⟨tb, h2, l2, d2, v2⟩ := one b hb
  refine ⟨if bytesLt ta tb then ta ++ tb else tb ++ ta, ta, tb, ?_, ?_, ?_, ?_, l1, l2, v1, v2⟩
  · simp [displayText, h1, h2]
  · split <;> simp [l1, l2]
  · intro x hx
    have : x ∈ ta ∨ x ∈ tb := by split at hx <;> simp at hx <;> grind
    rcases this with h | h
    · exact d1 x h
    · exact d2 x h
  · split <;> simp

/-- C34 (limits): shorter fingerprints crash the call. -/
theorem C34_display_short_panics (a b : Bytes) (h : a.length < 30 ∨ b.length < 30) : displayText a b = .panic := by
  rcases h with h | h
  · unfold displayText; rw [displayStringFor_short a h]; rfl
  · rw [C34_display_symmetric]; unfold displayText; rw [displayStringFor_short b h]; rfl

example : (displayText (Toy.key 1).bytes (Toy.key 200).bytes).isOk = true ∧
    displayText (Toy.key 1).bytes (Toy.key 200).bytes ≠ displayText (Toy.key 1).bytes (Toy.key 1).bytes := by
  decide +kernel

end Verif

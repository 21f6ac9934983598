import Verif.Model.Proto
import Verif.Proofs.Basic
/- The protobuf wire format: round trips and injectivity. -/
namespace Verif

theorem u8_ofNat_toNat {n : Nat} (h : n < 256) : (UInt8.ofNat n).toNat = n := by
  simp [UInt8.toNat_ofNat']; omega

theorem decVarintAux_enc (fuel k n : Nat) (rest : Bytes) (hk : k + fuel = 10) (hf : 0 < fuel)
    (h : n < 2 ^ (64 - 7 * k)) :
    decVarintAux fuel k (encVarintAux fuel n ++ rest) = some (n * 2 ^ (7 * k), rest) := by
  induction fuel generalizing k n with
  | zero => omega
  | succ fuel ih =>
    unfold encVarintAux
    split
    · rename_i h128
      simp only [List.cons_append, List.nil_append, decVarintAux]
      rw [u8_ofNat_toNat (by omega)]
      split
      · rename_i h9
        subst h9
        rw [if_pos (by simpa using h)]
      · rfl
    · rename_i h128
      have h9 : k ≠ 9 := by
        rintro rfl
        have : n < 2 := by simpa using h
        omega
      simp only [List.cons_append, decVarintAux]
      rw [u8_ofNat_toNat (by omega), if_neg h9, if_neg (by omega)]
      have hlt : n / 128 < 2 ^ (64 - 7 * (k + 1)) := by
        have : 2 ^ (64 - 7 * k) = 2 ^ (64 - 7 * (k + 1)) * 128 := by
          rw [show 64 - 7 * k = (64 - 7 * (k + 1)) + 7 by omega, Nat.pow_add]
        rw [Nat.div_lt_iff_lt_mul (by omega)]
        omega
      rw [ih (k + 1) (n / 128) (by omega) (by omega) hlt]
      simp only [Option.some.injEq, Prod.mk.injEq, and_true]
      rw [show 7 * (k + 1) = 7 * k + 7 by omega, Nat.pow_add]
      have := Nat.div_add_mod n 128
      generalize 2 ^ (7 * k) = p
      rw [show n % 128 + 128 - 128 = n % 128 by omega, show (2:Nat) ^ 7 = 128 by rfl]
      calc n % 128 * p + n / 128 * (p * 128) = (128 * (n / 128) + n % 128) * p := by grind
        _ = n * p := by rw [this]

/-- Decoding an encoded varint gives back the value and the rest. -/
theorem decVarint_enc {n : Nat} (h : n < 2 ^ 64) (rest : Bytes) :
    decVarint (encVarint n ++ rest) = some (n, rest) := by
  have := decVarintAux_enc 10 0 n rest rfl (by omega) (by simpa using h)
  simpa [decVarint, encVarint] using this

theorem encVarintAux_pos (fuel n : Nat) (h : 0 < fuel) : 0 < (encVarintAux fuel n).length := by
  cases fuel with
  | zero => omega
  | succ f => unfold encVarintAux; split <;> simp

theorem encVarint_pos (n : Nat) : 0 < (encVarint n).length := encVarintAux_pos _ _ (by omega)

theorem encVarintAux_le (fuel n : Nat) : (encVarintAux fuel n).length ≤ fuel := by
  induction fuel generalizing n with
  | zero => simp [encVarintAux]
  | succ f ih => unfold encVarintAux; split <;> simp; exact ih _

/-- `readFields` does not depend on the fuel once there is enough of it. -/
theorem readFields_fuel (schema : Nat → Option Kind) (f : Nat) (b : Bytes) (x : List (Nat × FieldVal))
    (h : readFields schema f b = some x) (f' : Nat) (hf : f ≤ f') : readFields schema f' b = some x := by
  induction f generalizing b x f' with
  | zero =>
    cases b with
    | nil => cases f' <;> simpa [readFields] using h
    | cons _ _ => simp [readFields] at h
  | succ f ih =>
    cases b with
    | nil => cases f' <;> simpa [readFields] using h
    | cons c b =>
      obtain ⟨f', rfl⟩ : ∃ g, f' = g + 1 := ⟨f' - 1, by omega⟩
      simp only [readFields] at h ⊢
      cases hr : readField schema (c :: b) with
      | none => simp [hr] at h
      | some p =>
        obtain ⟨fv, rest⟩ := p
        simp only [hr] at h ⊢
        cases hs : readFields schema f rest with
        | none => simp [hs] at h
        | some fs =>
          rw [ih rest fs hs f' (by omega)]
          simpa [hs] using h

/-- A field prefix is read off, whatever the remaining fuel. -/
theorem readFields_cons (schema : Nat → Option Kind) (p : Bytes) (fv : Nat × FieldVal)
    (hp : 0 < p.length) (hread : ∀ rest, readField schema (p ++ rest) = some (some fv, rest))
    (f : Nat) (rest : Bytes) (fs : List (Nat × FieldVal)) (h : readFields schema f rest = some fs) :
    readFields schema (f + p.length) (p ++ rest) = some (fv :: fs) := by
  obtain ⟨c, p', rfl⟩ : ∃ c p', p = c :: p' := by cases p with | nil => simp at hp | cons c p' => exact ⟨c, p', rfl⟩
  have := hread rest
  simp only [List.cons_append] at this ⊢
  rw [show f + (c :: p').length = (f + p'.length) + 1 by simp; omega]
  simp only [readFields, this]
  rw [readFields_fuel schema f rest fs h _ (by omega)]

theorem readField_putU32 (schema : Nat → Option Kind) (tag : Nat) (ht : tag < 16) (hs : schema tag = some .u32)
    (v : UInt32) (rest : Bytes) :
    readField schema (putU32 tag v ++ rest) = some (some (tag, .varint v.toNat), rest) := by
  have hv : v.toNat < 2 ^ 32 := v.toNat_lt
  unfold readField putU32
  rw [List.append_assoc, decVarint_enc (by omega)]
  simp only
  rw [show tag * 8 / 8 = tag by omega, show tag * 8 % 8 = 0 by omega, hs]
  simp only
  rw [decVarint_enc (by omega)]
  simp only [Nat.mod_eq_of_lt hv]

theorem readField_putBytes (schema : Nat → Option Kind) (tag : Nat) (ht : tag < 16) (hs : schema tag = some .bytes)
    (b : Bytes) (hb : b.length < 2 ^ 64) (rest : Bytes) :
    readField schema (putBytes tag (some b) ++ rest) = some (some (tag, .bytes b), rest) := by
  unfold readField putBytes
  simp only [List.append_assoc]
  rw [decVarint_enc (by omega)]
  simp only
  rw [show (tag * 8 + 2) / 8 = tag by omega, show (tag * 8 + 2) % 8 = 2 by omega, hs]
  simp only
  rw [decVarint_enc hb]
  simp

theorem putU32_pos (tag : Nat) (v : UInt32) : 0 < (putU32 tag v).length := by
  have := encVarint_pos (tag * 8); simp [putU32]; omega
theorem putBytes_pos (tag : Nat) (b : Bytes) : 0 < (putBytes tag (some b)).length := by
  have := encVarint_pos (tag * 8 + 2); simp [putBytes]; omega

/-- A field to be marshalled: number and value. -/
inductive PField where
  | u32 (tag : Nat) (v : UInt32)
  | bytes (tag : Nat) (v : Option Bytes)

def PField.put : PField → Bytes
  | .u32 t v => putU32 t v
  | .bytes t v => putBytes t v
def PField.vals : PField → List (Nat × FieldVal)
  | .u32 t v => [(t, .varint v.toNat)]
  | .bytes _ none => []
  | .bytes t (some b) => [(t, .bytes b)]
def PField.Ok (schema : Nat → Option Kind) : PField → Prop
  | .u32 t _ => t < 16 ∧ schema t = some .u32
  | .bytes t v => t < 16 ∧ schema t = some .bytes ∧ ∀ b ∈ v, b.length < 2 ^ 64

theorem readFields_put (schema : Nat → Option Kind) (l : List PField) (h : ∀ f ∈ l, f.Ok schema) :
    readFields schema (l.flatMap PField.put).length (l.flatMap PField.put) = some (l.flatMap PField.vals) := by
  induction l with
  | nil => rfl
  | cons f l ih =>
    have ih := ih (fun g hg => h g (List.mem_cons_of_mem _ hg))
    have hf := h f List.mem_cons_self
    simp only [List.flatMap_cons, List.length_append]
    match f, hf with
    | .u32 t v, hf =>
      rw [Nat.add_comm]
      exact readFields_cons schema _ (t, .varint v.toNat) (putU32_pos t v)
        (readField_putU32 schema t hf.1 hf.2 v) _ _ _ ih
    | .bytes t none, hf => simpa [PField.put, PField.vals, putBytes] using ih
    | .bytes t (some b), hf =>
      rw [Nat.add_comm]
      exact readFields_cons schema _ (t, .bytes b) (putBytes_pos t b)
        (readField_putBytes schema t hf.1 hf.2.1 b (hf.2.2 b rfl)) _ _ _ ih

/-- Unmarshalling a list of marshalled fields returns them. -/
theorem unmarshal_put (schema : Nat → Option Kind) (l : List PField) (h : ∀ f ∈ l, f.Ok schema) :
    unmarshal schema (l.flatMap PField.put) = .ok (l.flatMap PField.vals) := by
  unfold unmarshal; rw [readFields_put schema l h]

end Verif

import Verif.Spec.Fields
import Verif.Props.Wire
import Verif.Props.Auth
/-
C57: parsing takes the last occurrence of every declared field and ignores everything it does not know.
-/
set_option linter.unusedSimpArgs false
namespace Verif
open Spec

/-- What the unmarshal loop keeps of a field. -/
def kept (schema : Nat → Option Kind) : WireField → Option (Nat × FieldVal)
  | .num t n => if schema t = some .u32 then some (t, .varint (n % 2 ^ 32)) else none
  | .str t b => if schema t = some .bytes then some (t, .bytes b) else none
  | _ => none

theorem add_not_lt (a b : Nat) : (a + b < a) = False := eq_false (by omega)

theorem readField_wire (schema : Nat → Option Kind) (f : WireField) (hv : f.valid) (rest : Bytes) :
    readField schema (f.encode ++ rest) = some (kept schema f, rest) := by
  cases f with
  | num t n =>
    obtain ⟨h1, h2⟩ := hv
    unfold readField
    simp only [WireField.encode, List.append_assoc]
    rw [← encVarint_spec (n := t * 8) (by omega), ← encVarint_spec (n := n) h2, decVarint_enc (by omega)]
    simp only
    rw [show t * 8 / 8 = t by omega, show t * 8 % 8 = 0 by omega]
    cases hs : schema t with
    | none => simp [skipField, decVarint_enc h2, kept, hs, add_not_lt]
    | some k => cases k <;> simp [skipField, decVarint_enc h2, kept, hs, add_not_lt]
  | str t b =>
    obtain ⟨h1, h2⟩ := hv
    unfold readField
    simp only [WireField.encode, List.append_assoc]
    rw [← encVarint_spec (n := t * 8 + 2) (by omega), ← encVarint_spec (n := b.length) h2, decVarint_enc (by omega)]
    simp only
    rw [show (t * 8 + 2) / 8 = t by omega, show (t * 8 + 2) % 8 = 2 by omega]
    cases hs : schema t with
    | none => simp [skipField, decVarint_enc h2, kept, hs, add_not_lt]
    | some k => cases k <;> simp [skipField, decVarint_enc h2, kept, hs, add_not_lt]
  | fixed64 t b =>
    obtain ⟨h1, h2⟩ := hv
    unfold readField
    simp only [WireField.encode, List.append_assoc]
    rw [← encVarint_spec (n := t * 8 + 1) (by omega), decVarint_enc (by omega)]
    simp only
    rw [show (t * 8 + 1) / 8 = t by omega, show (t * 8 + 1) % 8 = 1 by omega]
    cases hs : schema t with
    | none => simp [skipField, kept, hs, h2, add_not_lt]
    | some k => cases k <;> simp [skipField, kept, hs, h2, add_not_lt]
  | fixed32 t b =>
    obtain ⟨h1, h2⟩ := hv
    unfold readField
    simp only [WireField.encode, List.append_assoc]
    rw [← encVarint_spec (n := t * 8 + 5) (by omega), decVarint_enc (by omega)]
    simp only
    rw [show (t * 8 + 5) / 8 = t by omega, show (t * 8 + 5) % 8 = 5 by omega]
    cases hs : schema t with
    | none => simp [skipField, kept, hs, h2, add_not_lt]
    | some k => cases k <;> simp [skipField, kept, hs, h2, add_not_lt]

theorem WireField.encode_pos (f : WireField) (hv : f.valid) : 0 < f.encode.length := by
  have key : ∀ n, n < 2 ^ 64 → 0 < (varint n).length := fun n h => by rw [← encVarint_spec h]; exact encVarint_pos n
  cases f with
  | num t n => have := key (t * 8) (by have := hv.1; omega); simp [WireField.encode]; omega
  | str t n => have := key (t * 8 + 2) (by have := hv.1; omega); simp [WireField.encode]; omega
  | fixed64 t n => have := key (t * 8 + 1) (by have := hv.1; omega); simp [WireField.encode]; omega
  | fixed32 t n => have := key (t * 8 + 5) (by have := hv.1; omega); simp [WireField.encode]; omega

theorem unmarshal_wire (schema : Nat → Option Kind) (l : List WireField) (h : ∀ f ∈ l, f.valid) :
    unmarshal schema (encodeBody l) = .ok (l.filterMap (kept schema)) := by
  suffices hr : readFields schema (encodeBody l).length (encodeBody l) = some (l.filterMap (kept schema)) by
    unfold unmarshal; rw [hr]
  induction l with
  | nil => rfl
  | cons f l ih =>
    have ih := ih (fun g hg => h g (List.mem_cons_of_mem _ hg))
    have hf := h f List.mem_cons_self
    have hpos := WireField.encode_pos f hf
    have hread := readField_wire schema f hf (encodeBody l)
    have e : encodeBody (f :: l) = f.encode ++ encodeBody l := by simp [encodeBody]
    rw [e]
    cases hp : f.encode with
    | nil => rw [hp] at hpos; simp at hpos
    | cons c p' =>
      rw [hp] at hread
      simp only [List.cons_append, List.length_cons, List.length_append] at hread ⊢
      simp only [readFields, hread]
      rw [readFields_fuel schema _ _ _ ih _ (by omega)]
      cases hk : kept schema f <;> simp [hk]

theorem find_append_some {α : Type} (p : α → Bool) (l m : List α) :
    (l ++ m).find? p = match l.find? p with | some x => some x | none => m.find? p := by
  rw [List.find?_append]
  cases l.find? p <;> rfl

theorem lastField_cons (tag : Nat) (p : Nat × FieldVal) (fs : List (Nat × FieldVal)) :
    lastField tag (p :: fs) = match lastField tag fs with
      | some v => some v
      | none => if p.1 = tag then some p.2 else none := by
  unfold lastField
  rw [List.reverse_cons, find_append_some]
  cases hf : fs.reverse.find? (fun p => p.1 == tag) with
  | some x => rfl
  | none =>
    by_cases h : p.1 = tag
    · simp [h]
    · have h' : (p.1 == tag) = false := by simp [h]
      simp [h, List.find?, h']

theorem lastField_num {schema : Nat → Option Kind} {tag : Nat} (hs : schema tag = some .u32) (l : List WireField) :
    lastField tag (l.filterMap (kept schema)) = (lastNum tag l).map (fun n => .varint (n % 2 ^ 32)) := by
  induction l with
  | nil => rfl
  | cons f l ih =>
    cases f with
    | num t n =>
      by_cases h : t = tag
      · subst h
        simp only [List.filterMap_cons, kept, hs, if_true, lastField_cons, ih, lastNum]
        cases hl : lastNum t l <;> simp_all
      · by_cases h2 : schema t = some .u32
        · simp only [List.filterMap_cons, kept, h2, if_true, lastField_cons, ih, lastNum, h, if_false]
          cases lastNum tag l <;> simp_all
        · simp only [List.filterMap_cons, kept, h2, if_false, ih, lastNum, h]
          cases lastNum tag l <;> simp_all
    | str t b =>
      by_cases h : t = tag
      · subst h
        simp only [List.filterMap_cons, kept, hs, ih, lastNum]
        cases hl : lastNum t l <;> simp_all
      · by_cases h2 : schema t = some .bytes
        · simp only [List.filterMap_cons, kept, h2, if_true, lastField_cons, ih, lastNum, h, if_false]
          cases lastNum tag l <;> simp_all
        · simp only [List.filterMap_cons, kept, h2, if_false, ih, lastNum]
          cases lastNum tag l <;> simp_all
    | fixed64 t b =>
      simp only [List.filterMap_cons, kept, ih, lastNum]
      cases lastNum tag l <;> simp_all
    | fixed32 t b =>
      simp only [List.filterMap_cons, kept, ih, lastNum]
      cases lastNum tag l <;> simp_all

theorem lastField_str {schema : Nat → Option Kind} {tag : Nat} (hs : schema tag = some .bytes) (l : List WireField) :
    lastField tag (l.filterMap (kept schema)) = (lastStr tag l).map .bytes := by
  induction l with
  | nil => rfl
  | cons f l ih =>
    cases f with
    | str t n =>
      by_cases h : t = tag
      · subst h
        simp only [List.filterMap_cons, kept, hs, if_true, lastField_cons, ih, lastStr]
        cases hl : lastStr t l <;> simp_all
      · by_cases h2 : schema t = some .bytes
        · simp only [List.filterMap_cons, kept, h2, if_true, lastField_cons, ih, lastStr, h, if_false]
          cases lastStr tag l <;> simp_all
        · simp only [List.filterMap_cons, kept, h2, if_false, ih, lastStr, h]
          cases lastStr tag l <;> simp_all
    | num t b =>
      by_cases h : t = tag
      · subst h
        simp only [List.filterMap_cons, kept, hs, ih, lastStr]
        cases hl : lastStr t l <;> simp_all
      · by_cases h2 : schema t = some .u32
        · simp only [List.filterMap_cons, kept, h2, if_true, lastField_cons, ih, lastStr, h, if_false]
          cases lastStr tag l <;> simp_all
        · simp only [List.filterMap_cons, kept, h2, if_false, ih, lastStr]
          cases lastStr tag l <;> simp_all
    | fixed64 t b =>
      simp only [List.filterMap_cons, kept, ih, lastStr]
      cases lastStr tag l <;> simp_all
    | fixed32 t b =>
      simp only [List.filterMap_cons, kept, ih, lastStr]
      cases lastStr tag l <;> simp_all

theorem getU32_wire {schema : Nat → Option Kind} {tag : Nat} (hs : schema tag = some .u32) (l : List WireField) :
    getU32 tag (l.filterMap (kept schema)) = u32Field tag l := by
  unfold getU32 u32Field
  rw [lastField_num hs]
  cases lastNum tag l with
  | none => rfl
  | some n =>
    simp only [Option.map_some, Option.getD_some]
    apply UInt32.toNat_inj.1
    simp [UInt32.toNat_ofNat']

theorem getBytes_wire {schema : Nat → Option Kind} {tag : Nat} (hs : schema tag = some .bytes) (l : List WireField) :
    getBytes tag (l.filterMap (kept schema)) = lastStr tag l := by
  unfold getBytes
  rw [lastField_str hs]
  cases lastStr tag l <;> rfl

/-- **C57 (message).** Any version byte, any body of valid fields in any order, with repeats, unknown fields and fields of
the wrong wire type, and any 8-byte trailer parse to the last occurrence of fields 1 to 4. -/
theorem C57_message (v : UInt8) (l : List WireField) (hl : ∀ f ∈ l, f.valid) (mac : Bytes) (hm : mac.length = 8) :
    protoSM.de (v :: (encodeBody l ++ mac)) =
      .ok { version := (v.toNat / 16 : Nat), ratchetKey := lastStr 1 l, counter := u32Field 2 l, previousCounter := u32Field 3 l,
            cipherText := lastStr 4 l, mac := some mac } := by
  show smDe _ = _
  unfold smDe
  rw [show (macLength : Int) = ((8 : Nat) : Int) from rfl, splitThree_parts v (encodeBody l) mac 8 hm]
  simp only [Res.bind, unmarshal_wire smSchema l hl, Res.map, getBytes_wire (schema := smSchema) (tag := 1) rfl,
    getBytes_wire (schema := smSchema) (tag := 4) rfl, getU32_wire (schema := smSchema) (tag := 2) rfl,
    getU32_wire (schema := smSchema) (tag := 3) rfl, highBits]

/-- **C57 (prekey message).** -/
theorem C57_preKey_message (v : UInt8) (l : List WireField) (hl : ∀ f ∈ l, f.valid) :
    protoPK.de (v :: encodeBody l) =
      .ok { version := (v.toNat / 16 : Nat), registrationId := u32Field 5 l, baseKey := lastStr 2 l, identityKey := lastStr 3 l,
            signedPreKeyId := u32Field 6 l, message := lastStr 4 l, preKeyId := some (OptU32.new (u32Field 1 l)) } := by
  simp only [protoPK, pkDe, unmarshal_wire pkSchema l hl, Res.map, getBytes_wire (schema := pkSchema) (tag := 2) rfl,
    getBytes_wire (schema := pkSchema) (tag := 3) rfl, getBytes_wire (schema := pkSchema) (tag := 4) rfl,
    getU32_wire (schema := pkSchema) (tag := 1) rfl, getU32_wire (schema := pkSchema) (tag := 5) rfl,
    getU32_wire (schema := pkSchema) (tag := 6) rfl, highBits]

/-- **C57 (group message).** -/
theorem C57_group_message (v : UInt8) (l : List WireField) (hl : ∀ f ∈ l, f.valid) (sig : Bytes) (hm : sig.length = 64) :
    protoSK.de (v :: (encodeBody l ++ sig)) =
      .ok { version := UInt32.ofNat (v.toNat / 16), id := u32Field 1 l, iteration := u32Field 2 l, cipherText := lastStr 3 l,
            signature := some sig } := by
  show skDe _ = _
  unfold skDe
  rw [show (64 : Int) = ((64 : Nat) : Int) from rfl, splitThree_parts v (encodeBody l) sig 64 hm]
  simp only [Res.bind, unmarshal_wire skSchema l hl, Res.map, getBytes_wire (schema := skSchema) (tag := 3) rfl,
    getU32_wire (schema := skSchema) (tag := 1) rfl, getU32_wire (schema := skSchema) (tag := 2) rfl, highBits]

/-- **C57 (distribution message).** -/
theorem C57_distribution_message (v : UInt8) (l : List WireField) (hl : ∀ f ∈ l, f.valid) :
    protoSKD.de (v :: encodeBody l) =
      .ok { id := u32Field 1 l, iteration := u32Field 2 l, chainKey := lastStr 3 l, signingKey := lastStr 4 l,
            version := UInt32.ofNat (v.toNat / 16) } := by
  simp only [protoSKD, skdDe, unmarshal_wire skdSchema l hl, Res.map, getBytes_wire (schema := skdSchema) (tag := 3) rfl,
    getBytes_wire (schema := skdSchema) (tag := 4) rfl, getU32_wire (schema := skdSchema) (tag := 1) rfl,
    getU32_wire (schema := skdSchema) (tag := 2) rfl, highBits]

/-- Non-vacuity: an unknown field, fields out of order, one repeated, one with the wrong wire type. -/
example : let l := [WireField.str 4 [1], .num 2 7, .fixed64 9 [1, 2, 3, 4, 5, 6, 7, 8], .str 1 [5], .num 4 9, .fixed32 3 [0, 0, 0, 1],
      .num 2 (2 ^ 32 + 8), .str 77 [], .str 4 [2]]
    (∀ f ∈ l, f.valid) ∧ lastStr 4 l = some [2] ∧ u32Field 2 l = 8 ∧ lastStr 1 l = some [5] ∧ u32Field 3 l = 0 := by
  refine ⟨?_, by decide, by decide, by decide, by decide⟩
  simp [WireField.valid]

end Verif

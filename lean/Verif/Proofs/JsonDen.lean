import Verif.Proofs.JsonLike
/- The decoder's result depends only on the document, not on how it is written. -/
set_option linter.unusedSimpArgs false
namespace Verif
open Spec

/-- The decoder treats two lists of members that write the same document alike. -/
def DenCongr {α : Type} (dec : List (Bytes × JVal) → Option α) : Prop := ∀ m m', denMembers m = denMembers m' → dec m = dec m'

theorem fieldVals_den (names : List Bytes) (n : Bytes) (m : List (Bytes × JVal)) :
    (fieldVals names n m).map JVal.den = ((denMembers m).filter fun p => fieldOf names p.1 = some n).map (·.2) := by
  rw [denMembers_eq, fieldVals]
  induction m with
  | nil => rfl
  | cons p m ih =>
    obtain ⟨k, v⟩ := p
    rw [List.filterMap_cons, List.map_cons, List.filter_cons]
    by_cases hk : fieldOf names (unquote k) = some n
    · rw [if_pos (by simpa using hk)]
      simp only [hk, if_true, List.map_cons, ih]
    · rw [if_neg (by simpa using hk)]
      simp only [hk, if_false, ih]

theorem fieldVals_congr {m m' : List (Bytes × JVal)} (h : denMembers m = denMembers m') (names : List Bytes) (n : Bytes) :
    (fieldVals names n m).map JVal.den = (fieldVals names n m').map JVal.den := by
  rw [fieldVals_den, fieldVals_den, h]

theorem assign_congr {α : Type} {step : α → JVal → Option α} (hs : ∀ a v v', v.den = v'.den → step a v = step a v') :
    ∀ (l l' : List JVal) (a : α), l.map JVal.den = l'.map JVal.den → assign step a l = assign step a l' := by
  intro l
  induction l with
  | nil =>
    intro l' a h
    rw [List.map_nil] at h
    rw [List.map_eq_nil_iff.1 h.symm]
  | cons v l ih =>
    intro l' a h
    cases l' with
    | nil => cases h
    | cons v' l' =>
      simp only [List.map_cons, List.cons.injEq] at h
      rw [assign, assign, hs a v v' h.1]
      cases step a v' with
      | none => rfl
      | some b => exact ih l' b h.2

/-- Two values that write the same document: equal but for the way strings are written. -/
theorem den_cases {v v' : JVal} (h : v.den = v'.den) : v = v' ∨ (∃ s s', v = .str s ∧ v' = .str s' ∧ unquote s = unquote s') ∨
    (∃ l l', v = .arr l ∧ v' = .arr l' ∧ l.map JVal.den = l'.map JVal.den) ∨ ∃ m m', v = .obj m ∧ v' = .obj m' ∧ denMembers m = denMembers m' := by
  cases v <;> cases v' <;> simp only [JVal.den, reduceCtorEq, Doc.bool.injEq, Doc.num.injEq, Doc.str.injEq, Doc.arr.injEq, Doc.obj.injEq] at h
  · exact .inl rfl
  · exact .inl (by rw [h])
  · exact .inl (by rw [h])
  · exact .inr (.inl ⟨_, _, rfl, rfl, h⟩)
  · exact .inr (.inr (.inl ⟨_, _, rfl, rfl, by rw [denElems_eq, denElems_eq] at h; exact h⟩))
  · exact .inr (.inr (.inr ⟨_, _, rfl, rfl, h⟩))

theorem uintStep_congr (b a : Nat) (v v' : JVal) (h : v.den = v'.den) : uintStep b a v = uintStep b a v' := by
  rcases den_cases h with rfl | ⟨s, s', rfl, rfl, -⟩ | ⟨s, s', rfl, rfl, -⟩ | ⟨s, s', rfl, rfl, -⟩ <;> simp [uintStep]
theorem intStep_congr (a : Int) (v v' : JVal) (h : v.den = v'.den) : intStep a v = intStep a v' := by
  rcases den_cases h with rfl | ⟨s, s', rfl, rfl, -⟩ | ⟨s, s', rfl, rfl, -⟩ | ⟨s, s', rfl, rfl, -⟩ <;> simp [intStep]
theorem boolStep_congr (a : Bool) (v v' : JVal) (h : v.den = v'.den) : boolStep a v = boolStep a v' := by
  rcases den_cases h with rfl | ⟨s, s', rfl, rfl, -⟩ | ⟨s, s', rfl, rfl, -⟩ | ⟨s, s', rfl, rfl, -⟩ <;> simp [boolStep]

theorem mapM_congr {β : Type} {f : JVal → Option β} (hf : ∀ v v', v.den = v'.den → f v = f v') :
    ∀ (l l' : List JVal), l.map JVal.den = l'.map JVal.den → l.mapM f = l'.mapM f := by
  intro l
  induction l with
  | nil =>
    intro l' h
    rw [List.map_nil] at h
    rw [List.map_eq_nil_iff.1 h.symm]
  | cons v l ih =>
    intro l' h
    cases l' with
    | nil => cases h
    | cons v' l' =>
      simp only [List.map_cons, List.cons.injEq] at h
      rw [List.mapM_cons, List.mapM_cons, hf v v' h.1, ih l' h.2]

theorem bytesStep_congr (a : Option Bytes) (v v' : JVal) (h : v.den = v'.den) : bytesStep a v = bytesStep a v' := by
  rcases den_cases h with rfl | ⟨s, s', rfl, rfl, e⟩ | ⟨s, s', rfl, rfl, e⟩ | ⟨s, s', rfl, rfl, -⟩
  · rfl
  · rw [bytesStep, bytesStep, e]
  · rw [bytesStep, bytesStep, mapM_congr (fun v v' h => by rw [uintStep_congr 256 0 v v' h]) s s' e]
  · rw [bytesStep, bytesStep] <;> simp

section
variable {names : List Bytes} {m m' : List (Bytes × JVal)} (h : denMembers m = denMembers m')
include h
theorem u32_congr (n : String) : jsonU32 names m n = jsonU32 names m' n := by
  rw [jsonU32, jsonU32, assign_congr (uintStep_congr _) _ _ _ (fieldVals_congr h names (ascii n))]
theorem int_congr (n : String) : intField names m n = intField names m' n := by
  rw [intField, intField, assign_congr intStep_congr _ _ _ (fieldVals_congr h names (ascii n))]
theorem bool_congr (n : String) : boolField names m n = boolField names m' n := by
  rw [boolField, boolField, assign_congr boolStep_congr _ _ _ (fieldVals_congr h names (ascii n))]
theorem bytes_congr (n : String) : bytesField names m n = bytesField names m' n := by
  rw [bytesField, bytesField, assign_congr bytesStep_congr _ _ _ (fieldVals_congr h names (ascii n))]
theorem slice_congr {α : Type} {dec : List (Bytes × JVal) → Option α} (hd : DenCongr dec) (n : String) : sliceField dec names m n = sliceField dec names m' n := by
  rw [sliceField, sliceField, assign_congr _ _ _ _ (fieldVals_congr h names (ascii n))]
  intro a v v' h
  rcases den_cases h with rfl | ⟨s, s', rfl, rfl, e⟩ | ⟨s, s', rfl, rfl, e⟩ | ⟨s, s', rfl, rfl, -⟩
  · rfl
  · rw [sliceStep, sliceStep] <;> simp
  · rw [sliceStep, sliceStep]
    refine mapM_congr ?_ s s' e
    intro v v' h
    rcases den_cases h with rfl | ⟨s, s', rfl, rfl, e⟩ | ⟨s, s', rfl, rfl, e⟩ | ⟨s, s', rfl, rfl, e⟩
    · rfl
    · rfl
    · rfl
    · simp only [hd s s' e]
  · rw [sliceStep, sliceStep] <;> simp
end

/-- The values of a pointer field one after the other: what is accumulated writes the same document. -/
theorem ptr_assign : ∀ (l l' : List JVal) (a a' : Option (List (Bytes × JVal))), l.map JVal.den = l'.map JVal.den → a.map denMembers = a'.map denMembers →
    (assign ptrStep a l).map (Option.map denMembers) = (assign ptrStep a' l').map (Option.map denMembers) := by
  intro l
  induction l with
  | nil =>
    intro l' a a' h ha
    rw [List.map_nil] at h
    rw [List.map_eq_nil_iff.1 h.symm, assign, assign, Option.map_some, Option.map_some, ha]
  | cons v l ih =>
    intro l' a a' h ha
    cases l' with
    | nil => cases h
    | cons v' l' =>
      simp only [List.map_cons, List.cons.injEq] at h
      rw [assign, assign]
      rcases den_cases h.1 with rfl | ⟨s, s', rfl, rfl, e⟩ | ⟨s, s', rfl, rfl, e⟩ | ⟨s, s', rfl, rfl, e⟩
      · cases v with
        | null => simp only [ptrStep, Option.bind_some]; exact ih l' _ _ h.2 rfl
        | obj m =>
          simp only [ptrStep, Option.bind_some]
          refine ih l' _ _ h.2 ?_
          cases a <;> cases a' <;> simp only [Option.map_none, Option.map_some, reduceCtorEq, Option.some.injEq] at ha
          · rfl
          · simp only [Option.getD_some, Option.map_some, denMembers_eq, List.map_append] at ha ⊢
            rw [ha]
        | _ => rfl
      · rfl
      · rfl
      · simp only [ptrStep, Option.bind_some]
        refine ih l' _ _ h.2 ?_
        cases a <;> cases a' <;> simp only [Option.map_none, Option.map_some, reduceCtorEq, Option.some.injEq] at ha
        · simp only [Option.getD_none, List.nil_append, Option.map_some, e]
        · simp only [Option.getD_some, Option.map_some, denMembers_eq, List.map_append] at ha e ⊢
          rw [ha, e]

theorem ptr_congr {α : Type} {names : List Bytes} {m m' : List (Bytes × JVal)} (h : denMembers m = denMembers m') {dec : List (Bytes × JVal) → Option α}
    (hd : DenCongr dec) (n : String) : ptrField dec names m n = ptrField dec names m' n := by
  have hf := fieldVals_congr h names (ascii n)
  have hall : ∀ (l l' : List JVal) (_ : l.map JVal.den = l'.map JVal.den) (g : JVal → Bool) (_ : ∀ v v', v.den = v'.den → g v = g v'),
      l.all g = l'.all g := by
    intro l
    induction l with
    | nil => intro l' h g _; rw [List.map_nil] at h; rw [List.map_eq_nil_iff.1 h.symm]
    | cons v l ih =>
      intro l' h g hg
      cases l' with
      | nil => cases h
      | cons v' l' =>
        simp only [List.map_cons, List.cons.injEq] at h
        rw [List.all_cons, List.all_cons, ih l' h.2 g hg, hg v v' h.1]
  have ha := ptr_assign _ _ none none hf rfl
  simp only [ptrField]
  rw [hall _ _ hf _ (by
    intro v v' h
    rcases den_cases h with rfl | ⟨s, s', rfl, rfl, e⟩ | ⟨s, s', rfl, rfl, e⟩ | ⟨s, s', rfl, rfl, e⟩
    · rfl
    · rfl
    · rfl
    · simp only [hd s s' e])]
  congr 1
  generalize assign ptrStep none (fieldVals names (ascii n) m) = x at ha
  generalize assign ptrStep none (fieldVals names (ascii n) m') = y at ha
  cases x with
  | none => cases y with
    | none => rfl
    | some y => cases ha
  | some x => cases y with
    | none => cases ha
    | some y =>
      simp only [Option.map_some, Option.some.injEq] at ha
      cases x <;> cases y <;> simp only [Option.map_none, Option.map_some, reduceCtorEq, Option.some.injEq] at ha
      · rfl
      · simp only [Option.bind_some, hd _ _ ha]

/-! ### Structures -/

theorem SMStruct.ofJson_congr : DenCongr SMStruct.ofJson := by
  intro m m' h
  simp only [SMStruct.ofJson, bytes_congr h, u32_congr h, int_congr h]

theorem OptU32.ofJson_congr : DenCongr OptU32.ofJson := by
  intro m m' h
  simp only [OptU32.ofJson, u32_congr h, bool_congr h]

theorem PKStruct.ofJson_congr : DenCongr PKStruct.ofJson := by
  intro m m' h
  simp only [PKStruct.ofJson, u32_congr h, ptr_congr h OptU32.ofJson_congr, bytes_congr h, int_congr h]

theorem SKStruct.ofJson_congr : DenCongr SKStruct.ofJson := by
  intro m m' h
  simp only [SKStruct.ofJson, u32_congr h, bytes_congr h]

theorem SKDStruct.ofJson_congr : DenCongr SKDStruct.ofJson := by
  intro m m' h
  simp only [SKDStruct.ofJson, u32_congr h, bytes_congr h]

theorem PreKeyStruct.ofJson_congr : DenCongr PreKeyStruct.ofJson := by
  intro m m' h
  simp only [PreKeyStruct.ofJson, u32_congr h, bytes_congr h]

theorem SignedPreKeyStruct.ofJson_congr : DenCongr SignedPreKeyStruct.ofJson := by
  intro m m' h
  simp only [SignedPreKeyStruct.ofJson, u32_congr h, bytes_congr h, int_congr h]

theorem ChainKey.ofJson_congr : DenCongr ChainKey.ofJson := by
  intro m m' h
  simp only [ChainKey.ofJson, bytes_congr h, u32_congr h]

theorem MsgKeys.ofJson_congr : DenCongr MsgKeys.ofJson := by
  intro m m' h
  simp only [MsgKeys.ofJson, bytes_congr h, u32_congr h]

theorem RawChain.ofJson_congr : DenCongr RawChain.ofJson := by
  intro m m' h
  simp only [RawChain.ofJson, bytes_congr h, ptr_congr h ChainKey.ofJson_congr, slice_congr h MsgKeys.ofJson_congr]

theorem PendingPreKeyStruct.ofJson_congr : DenCongr PendingPreKeyStruct.ofJson := by
  intro m m' h
  simp only [PendingPreKeyStruct.ofJson, ptr_congr h OptU32.ofJson_congr, u32_congr h, bytes_congr h]

theorem PendingKeyExchangeStruct.ofJson_congr : DenCongr PendingKeyExchangeStruct.ofJson := by
  intro m m' h
  simp only [PendingKeyExchangeStruct.ofJson, u32_congr h, bytes_congr h]

theorem RawState.ofJson_congr : DenCongr RawState.ofJson := by
  intro m m' h
  simp only [RawState.ofJson, bytes_congr h, u32_congr h, bool_congr h, ptr_congr h PendingKeyExchangeStruct.ofJson_congr, ptr_congr h PendingPreKeyStruct.ofJson_congr, slice_congr h RawChain.ofJson_congr, ptr_congr h RawChain.ofJson_congr, int_congr h]

theorem RawSession.ofJson_congr : DenCongr RawSession.ofJson := by
  intro m m' h
  simp only [RawSession.ofJson, ptr_congr h RawState.ofJson_congr, slice_congr h RawState.ofJson_congr]

theorem SMKey.ofJson_congr : DenCongr SMKey.ofJson := by
  intro m m' h
  simp only [SMKey.ofJson, u32_congr h, bytes_congr h]

theorem SChainKey.ofJson_congr : DenCongr SChainKey.ofJson := by
  intro m m' h
  simp only [SChainKey.ofJson, u32_congr h, bytes_congr h]

theorem RawSKState.ofJson_congr : DenCongr RawSKState.ofJson := by
  intro m m' h
  simp only [RawSKState.ofJson, slice_congr h SMKey.ofJson_congr, u32_congr h, ptr_congr h SChainKey.ofJson_congr, bytes_congr h]

theorem rawSenderKey_congr : DenCongr rawSenderKey := by
  intro m m' h
  simp only [rawSenderKey, slice_congr h RawSKState.ofJson_congr]

/-- Texts that write the same document are unmarshalled alike. -/
theorem unmarshal_same {α : Type} {dec : List (Bytes × JVal) → Option α} (hd : DenCongr dec) {d : Doc} {t t' : Bytes} (h : Writes d t) (h' : Writes d t') :
    unmarshalJson dec t = unmarshalJson dec t' := by
  obtain ⟨v, e, hv⟩ := scan_writes h
  obtain ⟨v', e', hv'⟩ := scan_writes h'
  rw [unmarshalJson, unmarshalJson, e, e', Option.bind_some, Option.bind_some, show v.depth = v'.depth by rw [← den_depth, ← den_depth, hv, hv']]
  refine if_congr Iff.rfl rfl ?_
  rcases den_cases (hv.trans hv'.symm) with rfl | ⟨s, s', rfl, rfl, e⟩ | ⟨s, s', rfl, rfl, e⟩ | ⟨s, s', rfl, rfl, e⟩
  · rfl
  · rfl
  · rfl
  · simp only [Option.bind_some, hd s s' e]

/-- What is not JSON is not unmarshalled. -/
theorem unmarshal_not_json {α : Type} (dec : List (Bytes × JVal) → Option α) {t : Bytes} (h : ¬ ∃ d, Writes d t) : unmarshalJson dec t = none := by
  rw [unmarshalJson]
  cases e : scan t with
  | none => rfl
  | some v => exact absurd ⟨v.den, (scan_iff t v.den).2 ⟨v, e, rfl⟩⟩ h

end Verif

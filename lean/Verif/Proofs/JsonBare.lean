import Verif.Proofs.JsonDen
import Verif.Proofs.JsonOwn
/- Members that are null are read like members that are missing. -/
set_option linter.unusedSimpArgs false
namespace Verif
open Spec

/-- The decoder treats members alike with and without those that are null. -/
def BareCongr {α : Type} (dec : List (Bytes × JVal) → Option α) : Prop :=
  ∀ m m', denMembers m' = bareMembers (denMembers m) → DistinctMembers (denMembers m) → dec m' = dec m

/-- The documents given to a field. -/
def fieldDocs (names : List Bytes) (n : Bytes) (D : List (Bytes × Doc)) : List Doc := (D.filter fun p => fieldOf names p.1 = some n).map (·.2)

theorem fieldOf_fold {names : List Bytes} {k n : Bytes} (h : fieldOf names k = some n) : foldKey k = foldKey n := by
  unfold fieldOf at h
  split at h
  · cases h; rfl
  · have := List.find?_some h
    exact (by simpa using this : foldKey n = foldKey k).symm

theorem fieldDocs_none {names : List Bytes} {k n : Bytes} {D : List (Bytes × Doc)} (hk : fieldOf names k = some n) (h : named k D = []) :
    fieldDocs names n D = [] := by
  unfold named at h
  unfold fieldDocs
  rw [List.map_eq_nil_iff, List.filter_eq_nil_iff] at h ⊢
  intro p hp hf
  refine h p hp ?_
  have h1 := fieldOf_fold hk
  have h2 := fieldOf_fold (of_decide_eq_true hf)
  simpa [caseless_eq, h1] using h2

theorem fieldDocs_bare_none {names : List Bytes} {n : Bytes} : ∀ (D : List (Bytes × Doc)), fieldDocs names n D = [] → fieldDocs names n (bareMembers D) = []
  | [], _ => rfl
  | (k, d) :: D, h => by
    have h' : fieldOf names k ≠ some n ∧ fieldDocs names n D = [] := by
      unfold fieldDocs at h ⊢
      rw [List.filter_cons] at h
      split at h
      · simp at h
      · rename_i hk; exact ⟨by simpa using hk, h⟩
    have ih := fieldDocs_bare_none D h'.2
    have key : fieldDocs names n ((k, d.bare) :: bareMembers D) = [] := by
      unfold fieldDocs at ih ⊢
      rw [List.filter_cons, if_neg (by simpa using h'.1)]
      exact ih
    cases d <;> simp only [bareMembers] <;> first | exact ih | exact key

theorem fieldDocs_cases (names : List Bytes) (n : Bytes) : ∀ (D : List (Bytes × Doc)), DistinctMembers D →
    fieldDocs names n D = [] ∧ fieldDocs names n (bareMembers D) = [] ∨
    fieldDocs names n D = [.null] ∧ fieldDocs names n (bareMembers D) = [] ∨
    ∃ d, d ≠ .null ∧ d.Distinct ∧ fieldDocs names n D = [d] ∧ fieldDocs names n (bareMembers D) = [d.bare]
  | [], _ => .inl ⟨rfl, rfl⟩
  | (k, d) :: D, h => by
    simp only [DistinctMembers] at h
    obtain ⟨h1, h2, h3⟩ := h
    by_cases hk : fieldOf names k = some n
    · have e := fieldDocs_none hk h1
      have e' := fieldDocs_bare_none D e
      have hd : fieldDocs names n ((k, d) :: D) = [d] := by
        unfold fieldDocs at e ⊢
        rw [List.filter_cons, if_pos (by simpa using hk), List.map_cons, e]
      by_cases hn : d = .null
      · subst hn
        exact .inr (.inl ⟨hd, e'⟩)
      · refine .inr (.inr ⟨d, hn, h2, hd, ?_⟩)
        have hb : fieldDocs names n ((k, d.bare) :: bareMembers D) = [d.bare] := by
          unfold fieldDocs at e' ⊢
          rw [List.filter_cons, if_pos (by simpa using hk), List.map_cons, e']
        cases d <;> simp only [bareMembers] <;> first | exact absurd rfl hn | exact hb
    · have skip : ∀ x (E : List (Bytes × Doc)), fieldDocs names n ((k, x) :: E) = fieldDocs names n E := by
        intro x E
        unfold fieldDocs
        rw [List.filter_cons, if_neg (by simpa using hk)]
      have hb : fieldDocs names n (bareMembers ((k, d) :: D)) = fieldDocs names n (bareMembers D) := by
        cases d <;> simp only [bareMembers] <;> first | rfl | exact skip _ _
      rw [hb, skip]
      exact fieldDocs_cases names n D h3

theorem fieldVals_cases {names : List Bytes} {m m' : List (Bytes × JVal)} (h : denMembers m' = bareMembers (denMembers m)) (hd : DistinctMembers (denMembers m)) (n : Bytes) :
    fieldVals names n m = [] ∧ fieldVals names n m' = [] ∨ fieldVals names n m = [.null] ∧ fieldVals names n m' = [] ∨
    ∃ v v', v.den.Distinct ∧ v'.den = v.den.bare ∧ fieldVals names n m = [v] ∧ fieldVals names n m' = [v'] := by
  have e := fieldVals_den names n m
  have e' := fieldVals_den names n m'
  rw [h] at e'
  rcases fieldDocs_cases names n _ hd with ⟨h1, h2⟩ | ⟨h1, h2⟩ | ⟨d, -, hdd, h1, h2⟩ <;> unfold fieldDocs at h1 h2 <;> rw [h1] at e <;> rw [h2] at e'
  · exact .inl ⟨List.map_eq_nil_iff.1 e, List.map_eq_nil_iff.1 e'⟩
  · obtain ⟨v, hv, hvn⟩ := List.map_eq_singleton_iff.1 e
    refine .inr (.inl ⟨?_, List.map_eq_nil_iff.1 e'⟩)
    rw [hv]
    cases v <;> simp [JVal.den] at hvn
    rfl
  · obtain ⟨v, hv, rfl⟩ := List.map_eq_singleton_iff.1 e
    obtain ⟨v', hv', hb⟩ := List.map_eq_singleton_iff.1 e'
    exact .inr (.inr ⟨v, v', hdd, hb, hv, hv'⟩)

/-- A value and the value without null members: both are the same scalar, or both arrays, or both objects. -/
theorem bare_cases {v v' : JVal} (h : v'.den = v.den.bare) : v' = v ∨ (∃ s s', v = .str s ∧ v' = .str s' ∧ unquote s' = unquote s) ∨
    (∃ l l', v = .arr l ∧ v' = .arr l' ∧ l'.map JVal.den = bareElems (l.map JVal.den)) ∨
    ∃ m m', v = .obj m ∧ v' = .obj m' ∧ denMembers m' = bareMembers (denMembers m) := by
  cases v <;> cases v' <;>
    simp only [JVal.den, Doc.bare, reduceCtorEq, Doc.bool.injEq, Doc.num.injEq, Doc.str.injEq, Doc.arr.injEq, Doc.obj.injEq] at h
  · exact .inl rfl
  · exact .inl (by rw [h])
  · exact .inl (by rw [h])
  · exact .inr (.inl ⟨_, _, rfl, rfl, h⟩)
  · exact .inr (.inr (.inl ⟨_, _, rfl, rfl, by rw [denElems_eq, denElems_eq] at h; exact h⟩))
  · exact .inr (.inr (.inr ⟨_, _, rfl, rfl, h⟩))

theorem assign_bare {α : Type} {step : α → JVal → Option α} {init : α} (h0 : step init .null = some init)
    (hs : ∀ v v', v.den.Distinct → v'.den = v.den.bare → step init v' = step init v) {names : List Bytes} {m m' : List (Bytes × JVal)}
    (h : denMembers m' = bareMembers (denMembers m)) (hd : DistinctMembers (denMembers m)) (n : Bytes) :
    assign step init (fieldVals names n m') = assign step init (fieldVals names n m) := by
  rcases fieldVals_cases (names := names) h hd n with ⟨e, e'⟩ | ⟨e, e'⟩ | ⟨v, v', hv, hb, e, e'⟩ <;> rw [e, e']
  · simp only [assign, h0, Option.bind_some]
  · simp only [assign, hs v v' hv hb]

theorem mapM_bare {β : Type} {f : JVal → Option β} (hf : ∀ v v', v.den.Distinct → v'.den = v.den.bare → f v' = f v) :
    ∀ (l l' : List JVal), DistinctElems (l.map JVal.den) → l'.map JVal.den = bareElems (l.map JVal.den) → l'.mapM f = l.mapM f
  | [], l', _, h => by
    simp only [List.map_nil, bareElems, List.map_eq_nil_iff] at h
    rw [h]
  | v :: l, [], _, h => by simp [bareElems] at h
  | v :: l, v' :: l', hd, h => by
    simp only [List.map_cons, bareElems, List.cons.injEq, DistinctElems] at h hd
    rw [List.mapM_cons, List.mapM_cons, hf v v' hd.1 h.1, mapM_bare hf l l' hd.2 h.2]

theorem uintStep_bare (b a : Nat) (v v' : JVal) (h : v'.den = v.den.bare) : uintStep b a v' = uintStep b a v := by
  rcases bare_cases h with rfl | ⟨s, s', rfl, rfl, -⟩ | ⟨s, s', rfl, rfl, -⟩ | ⟨s, s', rfl, rfl, -⟩ <;> simp [uintStep]
theorem intStep_bare (a : Int) (v v' : JVal) (h : v'.den = v.den.bare) : intStep a v' = intStep a v := by
  rcases bare_cases h with rfl | ⟨s, s', rfl, rfl, -⟩ | ⟨s, s', rfl, rfl, -⟩ | ⟨s, s', rfl, rfl, -⟩ <;> simp [intStep]
theorem boolStep_bare (a : Bool) (v v' : JVal) (h : v'.den = v.den.bare) : boolStep a v' = boolStep a v := by
  rcases bare_cases h with rfl | ⟨s, s', rfl, rfl, -⟩ | ⟨s, s', rfl, rfl, -⟩ | ⟨s, s', rfl, rfl, -⟩ <;> simp [boolStep]
theorem bytesStep_bare (a : Option Bytes) (v v' : JVal) (hd : v.den.Distinct) (h : v'.den = v.den.bare) : bytesStep a v' = bytesStep a v := by
  rcases bare_cases h with rfl | ⟨s, s', rfl, rfl, e⟩ | ⟨s, s', rfl, rfl, e⟩ | ⟨s, s', rfl, rfl, -⟩
  · rfl
  · rw [bytesStep, bytesStep, e]
  · rw [JVal.den, Doc.Distinct, denElems_eq] at hd
    rw [bytesStep, bytesStep, mapM_bare (fun v v' _ h => by rw [uintStep_bare 256 0 v v' h]) s s' hd e]
  · rw [bytesStep, bytesStep] <;> simp

section
variable {names : List Bytes} {m m' : List (Bytes × JVal)} (h : denMembers m' = bareMembers (denMembers m)) (hd : DistinctMembers (denMembers m))
include h hd
theorem u32_bare (n : String) : jsonU32 names m' n = jsonU32 names m n := by
  rw [jsonU32, jsonU32, assign_bare rfl (fun v v' _ h => uintStep_bare _ _ v v' h) h hd]
theorem int_bare (n : String) : intField names m' n = intField names m n := by
  rw [intField, intField, assign_bare rfl (fun v v' _ h => intStep_bare _ v v' h) h hd]
theorem bool_bare (n : String) : boolField names m' n = boolField names m n := by
  rw [boolField, boolField, assign_bare rfl (fun v v' _ h => boolStep_bare _ v v' h) h hd]
theorem bytes_bare (n : String) : bytesField names m' n = bytesField names m n := by
  rw [bytesField, bytesField, assign_bare rfl (fun v v' hv h => bytesStep_bare _ v v' hv h) h hd]
theorem slice_bare {α : Type} {dec : List (Bytes × JVal) → Option α} (hc : BareCongr dec) (n : String) : sliceField dec names m' n = sliceField dec names m n := by
  rw [sliceField, sliceField, assign_bare rfl _ h hd]
  intro v v' hv h
  rcases bare_cases h with rfl | ⟨s, s', rfl, rfl, e⟩ | ⟨s, s', rfl, rfl, e⟩ | ⟨s, s', rfl, rfl, -⟩
  · rfl
  · rw [sliceStep, sliceStep] <;> simp
  · rw [JVal.den, Doc.Distinct, denElems_eq] at hv
    rw [sliceStep, sliceStep]
    refine mapM_bare ?_ s s' hv e
    intro v v' hv h
    rcases bare_cases h with rfl | ⟨s, s', rfl, rfl, e⟩ | ⟨s, s', rfl, rfl, e⟩ | ⟨s, s', rfl, rfl, e⟩
    · rfl
    · rfl
    · rfl
    · rw [JVal.den, Doc.Distinct] at hv
      simp only [hc s s' e hv]
  · rw [sliceStep, sliceStep] <;> simp
theorem ptr_bare {α : Type} {dec : List (Bytes × JVal) → Option α} (hc : BareCongr dec) (n : String) : ptrField dec names m' n = ptrField dec names m n := by
  simp only [ptrField]
  rcases fieldVals_cases (names := names) h hd (ascii n) with ⟨e, e'⟩ | ⟨e, e'⟩ | ⟨v, v', hv, hb, e, e'⟩ <;> rw [e, e']
  · rfl
  · rcases bare_cases hb with rfl | ⟨s, s', rfl, rfl, e⟩ | ⟨s, s', rfl, rfl, e⟩ | ⟨s, s', rfl, rfl, e⟩
    · rfl
    · rfl
    · rfl
    · rw [JVal.den, Doc.Distinct] at hv
      simp only [List.all_cons, List.all_nil, assign, ptrStep, Option.bind_some, Option.getD_none, List.nil_append, hc s s' e hv]
      exact if_congr Iff.rfl rfl rfl
end

theorem SMStruct.ofJson_bare : BareCongr SMStruct.ofJson := by
  intro m m' h hd
  simp only [SMStruct.ofJson, bytes_bare h hd, u32_bare h hd, int_bare h hd]

theorem OptU32.ofJson_bare : BareCongr OptU32.ofJson := by
  intro m m' h hd
  simp only [OptU32.ofJson, u32_bare h hd, bool_bare h hd]

theorem PKStruct.ofJson_bare : BareCongr PKStruct.ofJson := by
  intro m m' h hd
  simp only [PKStruct.ofJson, u32_bare h hd, bytes_bare h hd, int_bare h hd, ptr_bare h hd OptU32.ofJson_bare]

theorem SKStruct.ofJson_bare : BareCongr SKStruct.ofJson := by
  intro m m' h hd
  simp only [SKStruct.ofJson, u32_bare h hd, bytes_bare h hd]

theorem SKDStruct.ofJson_bare : BareCongr SKDStruct.ofJson := by
  intro m m' h hd
  simp only [SKDStruct.ofJson, u32_bare h hd, bytes_bare h hd]

theorem PreKeyStruct.ofJson_bare : BareCongr PreKeyStruct.ofJson := by
  intro m m' h hd
  simp only [PreKeyStruct.ofJson, u32_bare h hd, bytes_bare h hd]

theorem SignedPreKeyStruct.ofJson_bare : BareCongr SignedPreKeyStruct.ofJson := by
  intro m m' h hd
  simp only [SignedPreKeyStruct.ofJson, u32_bare h hd, bytes_bare h hd, int_bare h hd]

theorem ChainKey.ofJson_bare : BareCongr ChainKey.ofJson := by
  intro m m' h hd
  simp only [ChainKey.ofJson, u32_bare h hd, bytes_bare h hd]

theorem MsgKeys.ofJson_bare : BareCongr MsgKeys.ofJson := by
  intro m m' h hd
  simp only [MsgKeys.ofJson, u32_bare h hd, bytes_bare h hd]

theorem RawChain.ofJson_bare : BareCongr RawChain.ofJson := by
  intro m m' h hd
  simp only [RawChain.ofJson, bytes_bare h hd, ptr_bare h hd ChainKey.ofJson_bare, slice_bare h hd MsgKeys.ofJson_bare]

theorem PendingPreKeyStruct.ofJson_bare : BareCongr PendingPreKeyStruct.ofJson := by
  intro m m' h hd
  simp only [PendingPreKeyStruct.ofJson, u32_bare h hd, bytes_bare h hd, ptr_bare h hd OptU32.ofJson_bare]

theorem PendingKeyExchangeStruct.ofJson_bare : BareCongr PendingKeyExchangeStruct.ofJson := by
  intro m m' h hd
  simp only [PendingKeyExchangeStruct.ofJson, u32_bare h hd, bytes_bare h hd]

theorem RawState.ofJson_bare : BareCongr RawState.ofJson := by
  intro m m' h hd
  simp only [RawState.ofJson, u32_bare h hd, bytes_bare h hd, bool_bare h hd, int_bare h hd, ptr_bare h hd PendingKeyExchangeStruct.ofJson_bare, ptr_bare h hd PendingPreKeyStruct.ofJson_bare, slice_bare h hd RawChain.ofJson_bare, ptr_bare h hd RawChain.ofJson_bare]

theorem RawSession.ofJson_bare : BareCongr RawSession.ofJson := by
  intro m m' h hd
  simp only [RawSession.ofJson, ptr_bare h hd RawState.ofJson_bare, slice_bare h hd RawState.ofJson_bare]

theorem SMKey.ofJson_bare : BareCongr SMKey.ofJson := by
  intro m m' h hd
  simp only [SMKey.ofJson, u32_bare h hd, bytes_bare h hd]

theorem SChainKey.ofJson_bare : BareCongr SChainKey.ofJson := by
  intro m m' h hd
  simp only [SChainKey.ofJson, u32_bare h hd, bytes_bare h hd]

theorem RawSKState.ofJson_bare : BareCongr RawSKState.ofJson := by
  intro m m' h hd
  simp only [RawSKState.ofJson, u32_bare h hd, bytes_bare h hd, slice_bare h hd SMKey.ofJson_bare, ptr_bare h hd SChainKey.ofJson_bare]

theorem rawSenderKey_bare : BareCongr rawSenderKey := by
  intro m m' h hd
  simp only [rawSenderKey, slice_bare h hd RawSKState.ofJson_bare]

mutual
/-- Some value writes the document without null members. -/
theorem exists_bare : ∀ v : JVal, ∃ w : JVal, w.den = v.den.bare
  | .null => ⟨.null, by simp [JVal.den, Doc.bare]⟩
  | .bool b => ⟨.bool b, by simp [JVal.den, Doc.bare]⟩
  | .num l => ⟨.num l, by simp [JVal.den, Doc.bare]⟩
  | .str s => ⟨.str s, by simp [JVal.den, Doc.bare]⟩
  | .arr vs => by obtain ⟨ws, h⟩ := exists_bareElems vs; exact ⟨.arr ws, by simp [JVal.den, Doc.bare, h]⟩
  | .obj ms => by obtain ⟨ws, h⟩ := exists_bareMembers ms; exact ⟨.obj ws, by simp [JVal.den, Doc.bare, h]⟩
theorem exists_bareElems : ∀ vs : List JVal, ∃ ws, denElems ws = bareElems (denElems vs)
  | [] => ⟨[], by simp [denElems, bareElems]⟩
  | v :: vs => by
    obtain ⟨w, h⟩ := exists_bare v
    obtain ⟨ws, hs⟩ := exists_bareElems vs
    exact ⟨w :: ws, by simp [denElems, bareElems, h, hs]⟩
theorem exists_bareMembers : ∀ ms : List (Bytes × JVal), ∃ ws, denMembers ws = bareMembers (denMembers ms)
  | [] => ⟨[], by simp [denMembers, bareMembers]⟩
  | (k, v) :: ms => by
    obtain ⟨w, h⟩ := exists_bare v
    obtain ⟨ws, hs⟩ := exists_bareMembers ms
    by_cases hn : v.den = .null
    · exact ⟨ws, by simp [denMembers, hn, bareMembers, hs]⟩
    · refine ⟨(k, w) :: ws, ?_⟩
      simp only [denMembers, h, hs]
      generalize v.den = d at hn
      cases d <;> first | exact absurd rfl hn | simp only [bareMembers]
end

theorem value_bare {α : Type} {dec : List (Bytes × JVal) → Option α} (hc : BareCongr dec) (u w : JVal) (hu : u.den.Distinct) (h : w.den = u.den.bare) :
    ((some u).bind fun v => match v with | .null => dec [] | .obj m => dec m | _ => none) =
      ((some w).bind fun v => match v with | .null => dec [] | .obj m => dec m | _ => none) := by
  rcases bare_cases h with rfl | ⟨s, s', rfl, rfl, e⟩ | ⟨s, s', rfl, rfl, e⟩ | ⟨s, s', rfl, rfl, e⟩
  · rfl
  · rfl
  · rfl
  · rw [JVal.den, Doc.Distinct] at hu
    simp only [Option.bind_some, hc s s' e hu]

/-- Texts of two documents that differ only in null members are unmarshalled alike. -/
theorem unmarshal_bare {α : Type} {dec : List (Bytes × JVal) → Option α} (hc : BareCongr dec) {d d' : Doc} (hd : d.Distinct) (hd' : d'.Distinct)
    (hs : d.Shallow) (hs' : d'.Shallow) (hb : d.bare = d'.bare) {t t' : Bytes} (h : Writes d t) (h' : Writes d' t') : unmarshalJson dec t = unmarshalJson dec t' := by
  obtain ⟨v, e, rfl⟩ := scan_writes h
  obtain ⟨v', e', rfl⟩ := scan_writes h'
  obtain ⟨w, hw⟩ := exists_bare v
  have hw' := hw.trans hb
  rw [unmarshalJson, unmarshalJson, e, e', Option.bind_some, Option.bind_some, if_neg ((shallow_iff _).1 hs), if_neg ((shallow_iff _).1 hs')]
  exact (value_bare hc v w hd hw).trans (value_bare hc v' w hd' hw').symm

mutual
/-- What the library writes has no repeated names. -/
theorem distinct_of_tidy : ∀ v : JVal, v.tidy → v.den.Distinct
  | .null, _ => by simp [JVal.den, Doc.Distinct]
  | .bool _, _ => by simp [JVal.den, Doc.Distinct]
  | .num _, _ => by simp [JVal.den, Doc.Distinct]
  | .str _, _ => by simp [JVal.den, Doc.Distinct]
  | .arr vs, h => by rw [JVal.tidy] at h; rw [JVal.den, Doc.Distinct]; exact distinct_of_tidyElems vs h
  | .obj ms, h => by rw [JVal.tidy] at h; rw [JVal.den, Doc.Distinct]; exact distinct_of_tidyMembers ms h.1 h.2
theorem distinct_of_tidyElems : ∀ vs : List JVal, tidyElems vs → DistinctElems (denElems vs)
  | [], _ => by simp [denElems, DistinctElems]
  | v :: vs, h => by rw [tidyElems] at h; rw [denElems, DistinctElems]; exact ⟨distinct_of_tidy v h.1, distinct_of_tidyElems vs h.2⟩
theorem distinct_of_tidyMembers : ∀ ms : List (Bytes × JVal), ((denMembers ms).map fun m => caseless m.1).Nodup → tidyMembers ms → DistinctMembers (denMembers ms)
  | [], _, _ => by simp [denMembers, DistinctMembers]
  | (k, v) :: ms, hn, h => by
    rw [tidyMembers] at h
    rw [denMembers, List.map_cons, List.nodup_cons] at hn
    rw [denMembers, DistinctMembers]
    refine ⟨?_, distinct_of_tidy v h.1, distinct_of_tidyMembers ms hn.2 h.2⟩
    rw [named, List.map_eq_nil_iff, List.filter_eq_nil_iff]
    intro m hm
    simp only [decide_eq_true_eq]
    intro e
    exact hn.1 (List.mem_map.2 ⟨m, hm, e⟩)
end

end Verif

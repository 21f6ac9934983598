import Verif.Proofs.JsonLike
/- What the library writes is JSON as Spec/JsonText.lean defines it, and no two members of an object differ only in case. -/
set_option maxRecDepth 20000
set_option linter.unusedSimpArgs false
namespace Verif
open Spec

theorem ws_nil : Ws [] := fun _ h => by cases h

theorem strText_plain (s : Bytes) (h : s.all plainChar = true) : StrText (unquote s) s := by
  rw [unquote_plain s h]
  induction s with
  | nil => exact .nil
  | cons c s ih =>
    simp only [List.all_cons, Bool.and_eq_true] at h
    have hc := h.1
    simp only [plainChar, Bool.and_eq_true, decide_eq_true_eq, Bool.not_eq_true', decide_eq_false_iff_not] at hc
    obtain ⟨⟨h1, h2⟩, h3⟩ := hc
    exact .raw c (UInt8.not_lt.1 h3) (by simpa using h1) (by simpa using h2) (ih h.2)

theorem numText_lit {l : Bytes} (h : IntLit l) : NumText l := by
  have key : ∀ n : Nat, natDec n = ascii "0" ∨ Digits (natDec n) ∧ (natDec n).head? ≠ some 48 := by
    intro n
    cases n with
    | zero => exact .inl (by decide)
    | succ n =>
      refine .inr ⟨⟨natDec_ne_nil _, fun c hc => ?_⟩, ?_⟩
      · have := isDec_of_isDigit (natDec_digits _ c hc)
        have all : ∀ k : Fin 10, (48 + UInt8.ofNat k.val) ∈ ascii "0123456789" := by decide
        simp only [isDec, Bool.and_eq_true, decide_eq_true_eq, UInt8.le_iff_toNat_le] at this
        have h48 : (48 : UInt8).toNat = 48 := rfl
        have h57 : (57 : UInt8).toNat = 57 := rfl
        have e : c = 48 + UInt8.ofNat (c.toNat - 48) := by
          apply UInt8.toNat_inj.1
          rw [UInt8.toNat_add, UInt8.toNat_ofNat']
          omega
        rw [Digit, e]
        exact all ⟨c.toNat - 48, by omega⟩
      · obtain ⟨c, r, e, hc⟩ := natDec_head (n + 1) (by omega)
        rw [e]; simpa using hc
  obtain ⟨n, rfl | rfl⟩ := h
  · exact ⟨[], natDec n, [], [], by simp, .inl rfl, key n, .inl rfl, .inl rfl⟩
  · exact ⟨ascii "-", natDec n, [], [], by simp [ascii], .inr rfl, key n, .inl rfl, .inl rfl⟩

mutual
theorem enc_text : ∀ (v : JVal), v.plain → Text (.value v.den) v.enc
  | .null, _ => by rw [JVal.den, JVal.enc]; exact .null
  | .bool true, _ => by rw [JVal.den, JVal.enc]; exact .true
  | .bool false, _ => by rw [JVal.den, JVal.enc]; exact .false
  | .num l, h => by rw [JVal.plain] at h; rw [JVal.den, JVal.enc]; exact .num (numText_lit h)
  | .str s, h => by rw [JVal.plain] at h; rw [JVal.den, JVal.enc]; exact .str (strText_plain s h)
  | .arr [], _ => by rw [JVal.den, JVal.enc, denElems, encElems]; exact .noElems (w := []) ws_nil
  | .arr (v :: vs), h => by rw [JVal.plain] at h; rw [JVal.den, JVal.enc]; exact .arr (encElems_text v vs h)
  | .obj [], _ => by rw [JVal.den, JVal.enc, denMembers, encMembers]; exact .noMembers (w := []) ws_nil
  | .obj ((k, v) :: ms), h => by rw [JVal.plain] at h; rw [JVal.den, JVal.enc]; exact .obj (encMembers_text k v ms h)
  termination_by v => 2 * sizeOf v
theorem encElems_text : ∀ (v : JVal) (vs : List JVal), plainElems (v :: vs) → Text (.elems (denElems (v :: vs))) (encElems (v :: vs))
  | v, [], h => by
    rw [plainElems] at h
    rw [denElems, denElems, encElems]
    have := Text.elem (w := []) (w' := []) ws_nil ws_nil (enc_text v h.1)
    simpa using this
  | v, w :: vs, h => by
    rw [plainElems] at h
    rw [denElems, encElems]
    have := Text.elemMore (w := []) (w' := []) ws_nil ws_nil (enc_text v h.1) (encElems_text w vs h.2)
    simpa using this
  termination_by v vs => 2 * (sizeOf v + sizeOf vs) + 1
theorem encMembers_text : ∀ (k : Bytes) (v : JVal) (ms : List (Bytes × JVal)), plainMembers ((k, v) :: ms) →
    Text (.members (denMembers ((k, v) :: ms))) (encMembers ((k, v) :: ms))
  | k, v, [], h => by
    rw [plainMembers] at h
    rw [denMembers, denMembers, encMembers]
    have := Text.member (w := []) (w1 := []) (w2 := []) (w3 := []) ws_nil ws_nil ws_nil ws_nil (strText_plain k h.1) (enc_text v h.2.1)
    simpa using this
  | k, v, (k', v') :: ms, h => by
    rw [plainMembers] at h
    rw [denMembers, encMembers]
    have := Text.memberMore (w := []) (w1 := []) (w2 := []) (w3 := []) ws_nil ws_nil ws_nil ws_nil (strText_plain k h.1) (enc_text v h.2.1)
      (encMembers_text k' v' ms h.2.2)
    simpa using this
  termination_by _ v ms => 2 * (sizeOf v + sizeOf ms) + 1
end

/-- `json.Marshal`'s output is a JSON text. -/
theorem writes_enc (v : JVal) (h : v.plain) : Writes v.den v.enc := ⟨[], v.enc, [], ws_nil, ws_nil, enc_text v h, by simp⟩

mutual
/-- No object has two members whose names differ only in case. -/
def JVal.tidy : JVal → Prop
  | .arr vs => tidyElems vs
  | .obj kvs => ((denMembers kvs).map fun m => caseless m.1).Nodup ∧ tidyMembers kvs
  | _ => True
def tidyElems : List JVal → Prop
  | [] => True
  | v :: vs => v.tidy ∧ tidyElems vs
def tidyMembers : List (Bytes × JVal) → Prop
  | [] => True
  | (_, v) :: ms => v.tidy ∧ tidyMembers ms
end

theorem named_self {ms : List (Bytes × Doc)} (h : (ms.map fun m => caseless m.1).Nodup) {k : Bytes} {d : Doc} (hm : (k, d) ∈ ms) : named k ms = [d] := by
  induction ms with
  | nil => cases hm
  | cons x l ih =>
    rw [List.map_cons, List.nodup_cons] at h
    rw [List.mem_cons] at hm
    rcases hm with e | hm
    · subst e
      have : named k l = [] := by
        rw [named, List.map_eq_nil_iff, List.filter_eq_nil_iff]
        intro m hm
        simp only [decide_eq_true_eq]
        intro e
        exact h.1 (List.mem_map.2 ⟨m, hm, e⟩)
      rw [named, List.filter_cons, if_pos (by simp), List.map_cons]
      exact congrArg _ this
    · have hne : ¬ caseless x.1 = caseless k := fun e => h.1 (List.mem_map.2 ⟨_, hm, e.symm⟩)
      rw [named, List.filter_cons, if_neg (by simpa using hne)]
      exact ih h.2 hm

mutual
theorem says_self : ∀ (v : JVal), v.tidy → v.den.Says v.den
  | .null, _ => by rw [JVal.den, Doc.Says]
  | .bool _, _ => by rw [JVal.den, Doc.Says]
  | .num _, _ => by rw [JVal.den, Doc.Says]
  | .str _, _ => by rw [JVal.den, Doc.Says]
  | .arr vs, h => by rw [JVal.tidy] at h; rw [JVal.den, Doc.Says]; exact ⟨_, rfl, saysElems_self vs h⟩
  | .obj kvs, h => by
    rw [JVal.tidy] at h; rw [JVal.den, Doc.Says]
    exact ⟨_, rfl, saysMembers_self kvs _ h.2 fun k d hm => named_self h.1 hm⟩
theorem saysElems_self : ∀ (vs : List JVal), tidyElems vs → SaysElems (denElems vs) (denElems vs)
  | [], _ => by rw [denElems, SaysElems]
  | v :: vs, h => by rw [tidyElems] at h; rw [denElems, SaysElems]; exact ⟨_, _, rfl, says_self v h.1, saysElems_self vs h.2⟩
theorem saysMembers_self : ∀ (ms : List (Bytes × JVal)) (ns : List (Bytes × Doc)), tidyMembers ms →
    (∀ k d, (k, d) ∈ denMembers ms → named k ns = [d]) → SaysMembers (denMembers ms) ns
  | [], _, _, _ => by rw [denMembers, SaysMembers]; trivial
  | (k, v) :: ms, ns, h, hn => by
    rw [tidyMembers] at h
    rw [denMembers] at hn
    rw [denMembers, SaysMembers]
    exact ⟨⟨_, hn _ _ List.mem_cons_self, says_self v h.1⟩, saysMembers_self ms ns h.2 fun k d hm => hn k d (List.mem_cons_of_mem _ hm)⟩
end

theorem reformatted_self {v : JVal} (hp : v.plain) (ht : v.tidy) (hd : v.depth ≤ maxNestingDepth := by json_depth) : Reformatted v.enc v.enc :=
  ⟨v.den, v.den, writes_enc v hp, writes_enc v hp, says_self v ht, (shallow_iff v).2 (Nat.not_lt.2 hd)⟩

theorem tidy_jBytes (b : Option Bytes) : (jBytes b).tidy := by cases b <;> simp [jBytes, JVal.tidy]
theorem tidy_jU32 (n : UInt32) : (jU32 n).tidy := by simp [jU32, JVal.tidy]
theorem tidy_jInt (n : Int) : (jInt n).tidy := by simp [jInt, JVal.tidy]
theorem tidy_bool (b : Bool) : (JVal.bool b).tidy := by simp [JVal.tidy]
theorem tidy_jPtr {α : Type} (f : α → JVal) (h : ∀ a, (f a).tidy) (o : Option α) : (jPtr f o).tidy := by
  cases o with
  | none => simp [jPtr, JVal.tidy]
  | some a => exact h a
theorem tidy_arr {α : Type} (f : α → JVal) (h : ∀ a, (f a).tidy) (l : List α) : (JVal.arr (l.map f)).tidy := by
  simp only [JVal.tidy]
  induction l with
  | nil => simp [tidyElems]
  | cons a l ih => simp only [List.map_cons, tidyElems]; exact ⟨h a, ih⟩
theorem tidy_jStruct (fields : List (String × JVal)) (hk : ((fields.map Prod.fst).map fun n => caseless (unquote (ascii n))).Nodup)
    (hv : ∀ f ∈ fields, f.2.tidy) : (jStruct fields).tidy := by
  simp only [jStruct, JVal.tidy]
  constructor
  · rw [denMembers_eq, List.map_map, List.map_map]
    rw [List.map_map] at hk
    exact hk
  · clear hk
    induction fields with
    | nil => simp [tidyMembers]
    | cons f fs ih => simp only [List.map_cons, tidyMembers]; exact ⟨hv f (by simp), ih fun g hg => hv g (by simp [hg])⟩


theorem SMStruct.json_tidy (st : SMStruct) : st.toJson.tidy :=
  tidy_jStruct _ (by simp only [List.map]; decide +kernel) (by simp [tidy_jBytes, tidy_jU32, tidy_jInt])

theorem OptU32.json_tidy (o : OptU32) : o.toJson.tidy :=
  tidy_jStruct _ (by simp only [List.map]; decide +kernel) (by simp [tidy_bool, tidy_jU32])

theorem PKStruct.json_tidy (st : PKStruct) : st.toJson.tidy :=
  tidy_jStruct _ (by simp only [List.map]; decide +kernel) (by simp [tidy_jBytes, tidy_jU32, tidy_jInt, tidy_jPtr _ OptU32.json_tidy])

theorem SKStruct.json_tidy (st : SKStruct) : st.toJson.tidy :=
  tidy_jStruct _ (by simp only [List.map]; decide +kernel) (by simp [tidy_jBytes, tidy_jU32])

theorem SKDStruct.json_tidy (st : SKDStruct) : st.toJson.tidy :=
  tidy_jStruct _ (by simp only [List.map]; decide +kernel) (by simp [tidy_jBytes, tidy_jU32])

theorem PreKeyStruct.json_tidy (st : PreKeyStruct) : st.toJson.tidy :=
  tidy_jStruct _ (by simp only [List.map]; decide +kernel) (by simp [tidy_jBytes, tidy_jU32])

theorem SignedPreKeyStruct.json_tidy (st : SignedPreKeyStruct) : st.toJson.tidy :=
  tidy_jStruct _ (by simp only [List.map]; decide +kernel) (by simp [tidy_jBytes, tidy_jU32, tidy_jInt])

theorem ChainKey.json_tidy (k : ChainKey) : k.toJson.tidy :=
  tidy_jStruct _ (by simp only [List.map]; decide +kernel) (by simp [tidy_jBytes, tidy_jU32])

theorem MsgKeys.json_tidy (k : MsgKeys) : k.toJson.tidy :=
  tidy_jStruct _ (by simp only [List.map]; decide +kernel) (by simp [tidy_jBytes, tidy_jU32])

theorem ChainStruct.json_tidy (c : ChainStruct) : c.toJson.tidy :=
  tidy_jStruct _ (by simp only [List.map]; decide +kernel) (by simp only [List.mem_cons, List.not_mem_nil, or_false, forall_eq_or_imp, forall_eq, tidy_jBytes,
    ChainKey.json_tidy, tidy_arr _ MsgKeys.json_tidy, and_self])

theorem PendingPreKeyStruct.json_tidy (p : PendingPreKeyStruct) : p.toJson.tidy :=
  tidy_jStruct _ (by simp only [List.map]; decide +kernel) (by simp [tidy_jBytes, tidy_jU32, tidy_jPtr _ OptU32.json_tidy])

theorem PendingKeyExchangeStruct.json_tidy (p : PendingKeyExchangeStruct) : p.toJson.tidy :=
  tidy_jStruct _ (by simp only [List.map]; decide +kernel) (by simp [tidy_jBytes, tidy_jU32])

theorem StateStruct.json_tidy (s : StateStruct) : s.toJson.tidy :=
  tidy_jStruct _ (by simp only [List.map]; decide +kernel) (by
    simp only [List.mem_cons, List.not_mem_nil, or_false, forall_eq_or_imp, forall_eq, tidy_jBytes, tidy_jU32, tidy_jInt, tidy_bool,
      tidy_jPtr _ PendingPreKeyStruct.json_tidy, tidy_jPtr _ PendingKeyExchangeStruct.json_tidy, tidy_jPtr _ ChainStruct.json_tidy,
      tidy_arr _ ChainStruct.json_tidy, and_self])

theorem SessionStruct.json_tidy (s : SessionStruct) : s.toJson.tidy :=
  tidy_jStruct _ (by simp only [List.map]; decide +kernel) (by
    simp only [List.mem_cons, List.not_mem_nil, or_false, forall_eq_or_imp, forall_eq, StateStruct.json_tidy,
      tidy_arr _ StateStruct.json_tidy, and_self])

theorem SMKey.json_tidy (k : SMKey) : k.toJson.tidy :=
  tidy_jStruct _ (by simp only [List.map]; decide +kernel) (by simp [tidy_jBytes, tidy_jU32])

theorem SChainKey.json_tidy (k : SChainKey) : k.toJson.tidy :=
  tidy_jStruct _ (by simp only [List.map]; decide +kernel) (by simp [tidy_jBytes, tidy_jU32])

theorem SKStateStruct.json_tidy (s : SKStateStruct) : s.toJson.tidy :=
  tidy_jStruct _ (by simp only [List.map]; decide +kernel) (by
    simp only [List.mem_cons, List.not_mem_nil, or_false, forall_eq_or_imp, forall_eq, tidy_jBytes, tidy_jU32, SChainKey.json_tidy,
      tidy_arr _ SMKey.json_tidy, and_self])

theorem senderKey_json_tidy (l : List SKStateStruct) : (senderKeyJson l).tidy :=
  tidy_jStruct _ (by simp only [List.map]; decide +kernel) (by
    simp only [List.mem_cons, List.not_mem_nil, or_false, forall_eq, tidy_arr _ SKStateStruct.json_tidy])

end Verif

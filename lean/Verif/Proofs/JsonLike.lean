import Verif.Proofs.JsonText
/- The decoder of Model/Json.lean and Model/JsonTypes.lean gives the same structure for every document that says what the written one says. -/
set_option maxRecDepth 20000
set_option linter.unusedSimpArgs false
namespace Verif
open Spec

theorem caseless_eq (k : Bytes) : caseless k = foldKey k := by
  fun_induction caseless k with
  | case1 s ih => rw [foldKey, ih]
  | case2 s ih => rw [foldKey, ih]
  | case3 c s h1 h2 ih =>
    rw [foldKey]
    · rw [ih]; simp only [Bool.and_eq_true, decide_eq_true_eq]
    · exact h1
    · exact h2
  | case4 => rw [foldKey]

/-- A key names the field whose name it is up to case. -/
theorem fieldOf_iff {names : List Bytes} (hn : (names.map foldKey).Nodup) {n : Bytes} (h : n ∈ names) (key : Bytes) :
    fieldOf names key = some n ↔ foldKey key = foldKey n := by
  have inj : ∀ a ∈ names, ∀ b ∈ names, foldKey a = foldKey b → a = b := by
    clear h
    induction names with
    | nil => intro a ha; cases ha
    | cons x l ih =>
      rw [List.map_cons, List.nodup_cons] at hn
      intro a ha b hb e
      rw [List.mem_cons] at ha hb
      rcases ha with rfl | ha <;> rcases hb with rfl | hb
      · rfl
      · exact absurd (List.mem_map.2 ⟨b, hb, e.symm⟩) hn.1
      · exact absurd (List.mem_map.2 ⟨a, ha, e⟩) hn.1
      · exact ih hn.2 a ha b hb e
  unfold fieldOf
  by_cases hc : key ∈ names
  · rw [if_pos (by simpa using hc), Option.some.injEq]
    exact ⟨fun e => by rw [e], fun e => inj key hc n h e⟩
  · rw [if_neg (by simpa using hc)]
    constructor
    · intro e
      have := List.find?_some e
      simpa using (by simpa using this : foldKey n = foldKey key).symm
    · intro e
      cases hf : names.find? fun n => foldKey n = foldKey key with
      | none =>
        have := List.find?_eq_none.1 hf n h
        simp [e] at this
      | some x =>
        have h1 := List.mem_of_find?_eq_some hf
        have h2 : foldKey x = foldKey key := by simpa using List.find?_some hf
        rw [inj x h1 n h (h2.trans e)]

/-- The decoder's values of a field are those of the members of that name. -/
theorem fieldVals_named {names : List Bytes} (hn : (names.map foldKey).Nodup) {n : Bytes} (h : n ∈ names) (m : List (Bytes × JVal)) :
    (fieldVals names n m).map JVal.den = named n (denMembers m) := by
  rw [denMembers_eq, fieldVals, named]
  induction m with
  | nil => rfl
  | cons p m ih =>
    obtain ⟨k, v⟩ := p
    rw [List.filterMap_cons, List.map_cons, List.filter_cons]
    by_cases hk : foldKey (unquote k) = foldKey n
    · rw [if_pos (by simpa [caseless_eq] using hk)]
      simp only [(fieldOf_iff hn h _).2 hk, if_true, List.map_cons, ih]
    · have : fieldOf names (unquote k) ≠ some n := fun e => hk ((fieldOf_iff hn h _).1 e)
      rw [if_neg (by simpa [caseless_eq] using hk)]
      simp only [this, if_false, ih]

theorem saysMembers_mem {ms ns : List (Bytes × Doc)} (h : SaysMembers ms ns) {k : Bytes} {d : Doc} (hm : (k, d) ∈ ms) : ∃ e, named k ns = [e] ∧ d.Says e := by
  induction ms with
  | nil => cases hm
  | cons x l ih =>
    obtain ⟨k', d'⟩ := x
    rw [SaysMembers] at h
    rw [List.mem_cons] at hm
    rcases hm with e | hm
    · cases e; exact h.1
    · exact ih h.2 hm

/-- A field whose value, and no other, says what `v` says. -/
def Given (names : List Bytes) (m : List (Bytes × JVal)) (n : String) (v : JVal) : Prop := ∃ w, fieldVals names (ascii n) m = [w] ∧ v.den.Says w.den

theorem fields_given {names : List Bytes} {fields : List (String × JVal)} (hn : (names.map foldKey).Nodup) (hf : fields.map (fun f => ascii f.1) = names)
    (hp : (names.all fun n => n.all plainChar) = true) {m : List (Bytes × JVal)} (h : (jStruct fields).den.Says (.obj (denMembers m))) :
    ∀ f ∈ fields, Given names m f.1 f.2 := by
  intro f hm
  rw [jStruct, JVal.den, Doc.Says] at h
  obtain ⟨ns, e, h⟩ := h
  cases e
  have hmem : ascii f.1 ∈ names := by rw [← hf]; exact List.mem_map.2 ⟨f, hm, rfl⟩
  have hpl : unquote (ascii f.1) = ascii f.1 := unquote_plain _ (List.all_eq_true.1 hp _ hmem)
  obtain ⟨e, h1, h2⟩ := saysMembers_mem h (k := ascii f.1) (d := f.2.den) (by
    rw [denMembers_eq, List.map_map]
    refine List.mem_map.2 ⟨f, hm, ?_⟩
    simp [hpl])
  rw [← fieldVals_named hn hmem] at h1
  match hv : fieldVals names (ascii f.1) m, h1 with
  | [w], h1 =>
    simp only [List.map_cons, List.map_nil, List.cons.injEq, and_true] at h1
    exact ⟨w, hv, h1 ▸ h2⟩

/-! ### Fields -/

theorem JVal.den_null {w : JVal} (h : w.den = .null) : w = .null := by cases w <;> simp [JVal.den] at h; rfl
theorem JVal.den_bool {w : JVal} {b : Bool} (h : w.den = .bool b) : w = .bool b := by cases w <;> simp [JVal.den] at h; rw [h]
theorem JVal.den_num {w : JVal} {l : Bytes} (h : w.den = .num l) : w = .num l := by cases w <;> simp [JVal.den] at h; rw [h]
theorem JVal.den_str {w : JVal} {s : Bytes} (h : w.den = .str s) : ∃ t, w = .str t ∧ unquote t = s := by
  cases w <;> simp [JVal.den] at h; exact ⟨_, rfl, h⟩
theorem JVal.den_arr {w : JVal} {ds : List Doc} (h : w.den = .arr ds) : ∃ vs, w = .arr vs ∧ denElems vs = ds := by
  cases w <;> simp [JVal.den] at h; exact ⟨_, rfl, h⟩
theorem JVal.den_obj {w : JVal} {ms : List (Bytes × Doc)} (h : w.den = .obj ms) : ∃ m, w = .obj m ∧ denMembers m = ms := by
  cases w <;> simp [JVal.den] at h; exact ⟨_, rfl, h⟩

theorem bytesField_like {names m name} {b : Option Bytes} (h : Given names m name (jBytes b)) : bytesField names m name = some b := by
  obtain ⟨w, h1, h2⟩ := h
  cases b with
  | none =>
    rw [jBytes, JVal.den, Doc.Says] at h2
    rw [JVal.den_null h2] at h1
    exact bytesField_get h1
  | some b =>
    rw [jBytes, JVal.den, Doc.Says] at h2
    obtain ⟨t, rfl, ht⟩ := JVal.den_str h2
    rw [bytesField, h1]
    simp only [assign, bytesStep, ht, b64Dec_enc, Option.map_some, Option.bind_some]

theorem u32Field_like {names m name} {n : UInt32} (h : Given names m name (jU32 n)) : jsonU32 names m name = some n := by
  obtain ⟨w, h1, h2⟩ := h
  rw [jU32, JVal.den, Doc.Says] at h2
  rw [JVal.den_num h2] at h1
  exact u32Field_get h1

theorem intField_like {names m name} {n : Int} (h : Given names m name (jInt n)) (hn : InInt64 n) : intField names m name = some n := by
  obtain ⟨w, h1, h2⟩ := h
  rw [jInt, JVal.den, Doc.Says] at h2
  rw [JVal.den_num h2] at h1
  exact intField_get h1 hn

theorem boolField_like {names m name} {b : Bool} (h : Given names m name (.bool b)) : boolField names m name = some b := by
  obtain ⟨w, h1, h2⟩ := h
  rw [JVal.den, Doc.Says] at h2
  rw [JVal.den_bool h2] at h1
  exact boolField_get h1

/-- `dec` reads every object that says what `f` writes for `a`, as `g a`. -/
def ReadsLike {α β : Type} (f : α → JVal) (dec : List (Bytes × JVal) → Option β) (g : α → β) (a : α) : Prop :=
  (∃ m, f a = .obj m) ∧ ∀ m, (f a).den.Says (.obj (denMembers m)) → dec m = some (g a)

theorem ReadsLike.value {α β : Type} {f : α → JVal} {dec : List (Bytes × JVal) → Option β} {g : α → β} {a : α} (h : ReadsLike f dec g a) {w : JVal}
    (hw : (f a).den.Says w.den) : ∃ m, w = .obj m ∧ dec m = some (g a) := by
  obtain ⟨⟨m, e⟩, h⟩ := h
  have hw' := hw
  rw [e, JVal.den, Doc.Says] at hw'
  obtain ⟨ns, e', -⟩ := hw'
  obtain ⟨m', rfl, rfl⟩ := JVal.den_obj e'
  rw [JVal.den] at hw
  exact ⟨m', rfl, h m' hw⟩

theorem ptrField_like {α β : Type} {names m name} {f : α → JVal} {dec : List (Bytes × JVal) → Option β} {g : α → β} {o : Option α}
    (h : Given names m name (jPtr f o)) (hd : ∀ a, o = some a → ReadsLike f dec g a) : ptrField dec names m name = some (o.map g) := by
  obtain ⟨w, h1, h2⟩ := h
  rw [ptrField, h1]
  cases o with
  | none =>
    rw [jPtr, JVal.den, Doc.Says] at h2
    rw [JVal.den_null h2]
    rfl
  | some a =>
    obtain ⟨m', rfl, e⟩ := (hd a rfl).value h2
    simp [e, assign, ptrStep]

theorem ptrField_like' {α β : Type} {names m name} {f : α → JVal} {dec : List (Bytes × JVal) → Option β} {g : α → β} {a : α}
    (h : Given names m name (f a)) (hd : ReadsLike f dec g a) : ptrField dec names m name = some (some (g a)) :=
  ptrField_like (o := some a) h (fun _ e => by cases e; exact hd)

theorem sliceField_like {α β : Type} {names m name} {f : α → JVal} {dec : List (Bytes × JVal) → Option β} {g : α → β} {l : List α}
    (h : Given names m name (.arr (l.map f))) (hd : ∀ a ∈ l, ReadsLike f dec g a) :
    sliceField dec names m name = some (l.map fun a => some (g a)) := by
  obtain ⟨w, h1, h2⟩ := h
  rw [JVal.den, Doc.Says] at h2
  obtain ⟨es, e, h2⟩ := h2
  obtain ⟨vs, rfl, rfl⟩ := JVal.den_arr e
  rw [sliceField, h1]
  have : sliceStep dec [] (.arr vs) = some (l.map fun a => some (g a)) := by
    rw [sliceStep]
    clear h1 e
    induction l generalizing vs with
    | nil =>
      rw [List.map_nil, denElems, SaysElems, denElems_eq, List.map_eq_nil_iff] at h2
      subst h2; rfl
    | cons a l ih =>
      rw [List.map_cons, denElems, SaysElems] at h2
      obtain ⟨e, r, he, h3, h4⟩ := h2
      cases vs with
      | nil => simp [denElems] at he
      | cons v vs =>
        rw [denElems, List.cons.injEq] at he
        obtain ⟨rfl, rfl⟩ := he
        obtain ⟨m', rfl, e2⟩ := (hd a (by simp)).value h3
        rw [List.mapM_cons, ih (fun a ha => hd a (by simp [ha])) vs h4, List.map_cons]
        simp [e2]
  simp only [assign, this, Option.bind_some]

/-- Unmarshalling a text that says what the marshalled one says. -/
theorem unmarshal_reformatted {α β : Type} {f : α → JVal} {dec : List (Bytes × JVal) → Option β} {g : α → β} {a : α} {t : Bytes}
    (hp : (f a).plain) (h : ReadsLike f dec g a) (ht : Reformatted (f a).enc t) : unmarshalJson dec t = some (g a) := by
  obtain ⟨d, e, h1, h2, h3, h4⟩ := ht
  obtain ⟨v, e1, rfl⟩ := scan_writes h1
  obtain ⟨w, e2, rfl⟩ := scan_writes h2
  rw [scan_enc _ hp] at e1
  cases e1
  obtain ⟨m, rfl, hm⟩ := h.value h3
  rw [unmarshalJson, e2, Option.bind_some, if_neg ((shallow_iff _).1 h4)]
  exact hm

/-! ### Structures -/

theorem SMStruct.json_like (st : SMStruct) (hv : InInt64 st.version) : ReadsLike SMStruct.toJson SMStruct.ofJson _root_.id st := by
  refine ⟨⟨_, rfl⟩, fun m h => ?_⟩
  have L := fields_given (names := smNames) (by decide +kernel) rfl (by decide +kernel) h
  simp only [List.mem_cons, List.not_mem_nil, or_false, forall_eq_or_imp, forall_eq] at L
  obtain ⟨l1, l2, l3, l4, l5, l6⟩ := L
  rw [SMStruct.ofJson, bytesField_like (b := st.ratchetKey) l1, u32Field_like (n := st.counter) l2, u32Field_like (n := st.previousCounter) l3,
    bytesField_like (b := st.cipherText) l4, intField_like (n := st.version) l5 hv, bytesField_like (b := st.mac) l6]
  rfl

theorem OptU32.json_like (o : OptU32) : ReadsLike OptU32.toJson OptU32.ofJson _root_.id o := by
  refine ⟨⟨_, rfl⟩, fun m h => ?_⟩
  have L := fields_given (names := optNames) (by decide +kernel) rfl (by decide +kernel) h
  simp only [List.mem_cons, List.not_mem_nil, or_false, forall_eq_or_imp, forall_eq] at L
  obtain ⟨l1, l2⟩ := L
  rw [OptU32.ofJson, u32Field_like (n := o.value) l1, boolField_like (b := o.isEmpty) l2]
  rfl

theorem PKStruct.json_like (st : PKStruct) (hv : InInt64 st.version) : ReadsLike PKStruct.toJson PKStruct.ofJson _root_.id st := by
  refine ⟨⟨_, rfl⟩, fun m h => ?_⟩
  have L := fields_given (names := pkNames) (by decide +kernel) rfl (by decide +kernel) h
  simp only [List.mem_cons, List.not_mem_nil, or_false, forall_eq_or_imp, forall_eq] at L
  obtain ⟨l1, l2, l3, l4, l5, l6, l7⟩ := L
  rw [PKStruct.ofJson, u32Field_like (n := st.registrationId) l1,
    ptrField_like (f := OptU32.toJson) (o := st.preKeyId) (g := _root_.id) l2 (fun o _ => OptU32.json_like o),
    u32Field_like (n := st.signedPreKeyId) l3, bytesField_like (b := st.baseKey) l4, bytesField_like (b := st.identityKey) l5,
    bytesField_like (b := st.message) l6, intField_like (n := st.version) l7 hv]
  simp

theorem SKStruct.json_like (st : SKStruct) : ReadsLike SKStruct.toJson SKStruct.ofJson _root_.id st := by
  refine ⟨⟨_, rfl⟩, fun m h => ?_⟩
  have L := fields_given (names := skNames) (by decide +kernel) rfl (by decide +kernel) h
  simp only [List.mem_cons, List.not_mem_nil, or_false, forall_eq_or_imp, forall_eq] at L
  obtain ⟨l1, l2, l3, l4, l5⟩ := L
  rw [SKStruct.ofJson, u32Field_like (n := st.id) l1, u32Field_like (n := st.iteration) l2, bytesField_like (b := st.cipherText) l3,
    u32Field_like (n := st.version) l4, bytesField_like (b := st.signature) l5]
  rfl

theorem SKDStruct.json_like (st : SKDStruct) : ReadsLike SKDStruct.toJson SKDStruct.ofJson _root_.id st := by
  refine ⟨⟨_, rfl⟩, fun m h => ?_⟩
  have L := fields_given (names := skdNames) (by decide +kernel) rfl (by decide +kernel) h
  simp only [List.mem_cons, List.not_mem_nil, or_false, forall_eq_or_imp, forall_eq] at L
  obtain ⟨l1, l2, l3, l4, l5⟩ := L
  rw [SKDStruct.ofJson, u32Field_like (n := st.id) l1, u32Field_like (n := st.iteration) l2, bytesField_like (b := st.chainKey) l3,
    bytesField_like (b := st.signingKey) l4, u32Field_like (n := st.version) l5]
  rfl

theorem PreKeyStruct.json_like (st : PreKeyStruct) : ReadsLike PreKeyStruct.toJson PreKeyStruct.ofJson _root_.id st := by
  refine ⟨⟨_, rfl⟩, fun m h => ?_⟩
  have L := fields_given (names := preKeyNames) (by decide +kernel) rfl (by decide +kernel) h
  simp only [List.mem_cons, List.not_mem_nil, or_false, forall_eq_or_imp, forall_eq] at L
  obtain ⟨l1, l2, l3⟩ := L
  rw [PreKeyStruct.ofJson, u32Field_like (n := st.id) l1, bytesField_like (b := some st.pub) l2, bytesField_like (b := some st.priv) l3]
  rfl

theorem SignedPreKeyStruct.json_like (st : SignedPreKeyStruct) : ReadsLike SignedPreKeyStruct.toJson SignedPreKeyStruct.ofJson _root_.id st := by
  refine ⟨⟨_, rfl⟩, fun m h => ?_⟩
  have L := fields_given (names := signedPreKeyNames) (by decide +kernel) rfl (by decide +kernel) h
  simp only [List.mem_cons, List.not_mem_nil, or_false, forall_eq_or_imp, forall_eq] at L
  obtain ⟨l1, l2, l3, l4, l5⟩ := L
  rw [SignedPreKeyStruct.ofJson, u32Field_like (n := st.id) l1, bytesField_like (b := some st.pub) l2, bytesField_like (b := some st.priv) l3,
    bytesField_like (b := some st.signature) l4, intField_like (n := st.timestamp.toInt) l5 (inInt64_toInt _)]
  simp

theorem ChainKey.json_like (k : ChainKey) : ReadsLike ChainKey.toJson ChainKey.ofJson _root_.id k := by
  refine ⟨⟨_, rfl⟩, fun m h => ?_⟩
  have L := fields_given (names := chainKeyNames) (by decide +kernel) rfl (by decide +kernel) h
  simp only [List.mem_cons, List.not_mem_nil, or_false, forall_eq_or_imp, forall_eq] at L
  obtain ⟨l1, l2⟩ := L
  rw [ChainKey.ofJson, bytesField_like (b := some k.key) l1, u32Field_like (n := k.index) l2]
  rfl

theorem MsgKeys.json_like (k : MsgKeys) : ReadsLike MsgKeys.toJson MsgKeys.ofJson _root_.id k := by
  refine ⟨⟨_, rfl⟩, fun m h => ?_⟩
  have L := fields_given (names := msgKeysNames) (by decide +kernel) rfl (by decide +kernel) h
  simp only [List.mem_cons, List.not_mem_nil, or_false, forall_eq_or_imp, forall_eq] at L
  obtain ⟨l1, l2, l3, l4⟩ := L
  rw [MsgKeys.ofJson, bytesField_like (b := some k.cipherKey) l1, bytesField_like (b := some k.macKey) l2, bytesField_like (b := some k.iv) l3,
    u32Field_like (n := k.index) l4]
  rfl

theorem ChainStruct.json_like (c : ChainStruct) : ReadsLike ChainStruct.toJson RawChain.ofJson ChainStruct.raw c := by
  refine ⟨⟨_, rfl⟩, fun m h => ?_⟩
  have L := fields_given (names := chainNames) (by decide +kernel) rfl (by decide +kernel) h
  simp only [List.mem_cons, List.not_mem_nil, or_false, forall_eq_or_imp, forall_eq] at L
  obtain ⟨l1, l2, l3, l4⟩ := L
  rw [RawChain.ofJson, bytesField_like (b := some c.ratchetPub) l1, bytesField_like (b := c.ratchetPriv) l2,
    ptrField_like' (f := ChainKey.toJson) (g := _root_.id) l3 (ChainKey.json_like c.chainKey),
    sliceField_like (f := MsgKeys.toJson) (g := _root_.id) l4 (fun k _ => MsgKeys.json_like k)]
  rfl

theorem PendingPreKeyStruct.json_like (p : PendingPreKeyStruct) : ReadsLike PendingPreKeyStruct.toJson PendingPreKeyStruct.ofJson _root_.id p := by
  refine ⟨⟨_, rfl⟩, fun m h => ?_⟩
  have L := fields_given (names := pendingPreKeyNames) (by decide +kernel) rfl (by decide +kernel) h
  simp only [List.mem_cons, List.not_mem_nil, or_false, forall_eq_or_imp, forall_eq] at L
  obtain ⟨l1, l2, l3⟩ := L
  rw [PendingPreKeyStruct.ofJson, ptrField_like (f := OptU32.toJson) (o := p.preKeyId) (g := _root_.id) l1 (fun o _ => OptU32.json_like o),
    u32Field_like (n := p.signedPreKeyId) l2, bytesField_like (b := some p.baseKey) l3]
  simp

theorem PendingKeyExchangeStruct.json_like (p : PendingKeyExchangeStruct) :
    ReadsLike PendingKeyExchangeStruct.toJson PendingKeyExchangeStruct.ofJson _root_.id p := by
  refine ⟨⟨_, rfl⟩, fun m h => ?_⟩
  have L := fields_given (names := pendingKeyExchangeNames) (by decide +kernel) rfl (by decide +kernel) h
  simp only [List.mem_cons, List.not_mem_nil, or_false, forall_eq_or_imp, forall_eq] at L
  obtain ⟨l1, l2, l3, l4, l5, l6, l7⟩ := L
  rw [PendingKeyExchangeStruct.ofJson, u32Field_like (n := p.sequence) l1, bytesField_like (b := some p.basePub) l2,
    bytesField_like (b := some p.basePriv) l3, bytesField_like (b := some p.ratchetPub) l4, bytesField_like (b := some p.ratchetPriv) l5,
    bytesField_like (b := some p.identityPub) l6, bytesField_like (b := some p.identityPriv) l7]
  rfl

theorem StateStruct.json_like (s : StateStruct) (hv : InInt64 s.version) : ReadsLike StateStruct.toJson RawState.ofJson StateStruct.raw s := by
  refine ⟨⟨_, rfl⟩, fun m h => ?_⟩
  have L := fields_given (names := stateNames) (by decide +kernel) rfl (by decide +kernel) h
  simp only [List.mem_cons, List.not_mem_nil, or_false, forall_eq_or_imp, forall_eq] at L
  obtain ⟨l1, l2, l3, l4, l5, l6, l7, l8, l9, l10, l11, l12, l13⟩ := L
  rw [RawState.ofJson, bytesField_like (b := some s.localIdentity) l1, u32Field_like (n := s.localRegistrationId) l2,
    boolField_like (b := s.needsRefresh) l3,
    ptrField_like (f := PendingKeyExchangeStruct.toJson) (o := s.pendingKeyExchange) (g := _root_.id) l4 (fun p _ => PendingKeyExchangeStruct.json_like p),
    ptrField_like (f := PendingPreKeyStruct.toJson) (o := s.pendingPreKey) (g := _root_.id) l5 (fun p _ => PendingPreKeyStruct.json_like p),
    u32Field_like (n := s.previousCounter) l6,
    sliceField_like (f := ChainStruct.toJson) (g := ChainStruct.raw) (l := s.receiverChains) l7 (fun c _ => ChainStruct.json_like c),
    bytesField_like (b := some s.remoteIdentity) l8, u32Field_like (n := s.remoteRegistrationId) l9, bytesField_like (b := some s.rootKey) l10,
    bytesField_like (b := some s.senderBaseKey) l11,
    ptrField_like (f := ChainStruct.toJson) (o := s.senderChain) (g := ChainStruct.raw) l12 (fun c _ => ChainStruct.json_like c),
    intField_like (n := s.version) l13 hv]
  simp [StateStruct.raw]

theorem SessionStruct.json_like (s : SessionStruct) (hv : InInt64 s.state.version) (hp : ∀ p ∈ s.previous, InInt64 p.version) :
    ReadsLike SessionStruct.toJson RawSession.ofJson SessionStruct.raw s := by
  refine ⟨⟨_, rfl⟩, fun m h => ?_⟩
  have L := fields_given (names := sessionNames) (by decide +kernel) rfl (by decide +kernel) h
  simp only [List.mem_cons, List.not_mem_nil, or_false, forall_eq_or_imp, forall_eq] at L
  obtain ⟨l1, l2⟩ := L
  rw [RawSession.ofJson, ptrField_like' (f := StateStruct.toJson) (g := StateStruct.raw) l1 (StateStruct.json_like s.state hv),
    sliceField_like (f := StateStruct.toJson) (g := StateStruct.raw) (l := s.previous) l2 (fun c hc => StateStruct.json_like c (hp c hc))]
  rfl

theorem SMKey.json_like (k : SMKey) : ReadsLike SMKey.toJson SMKey.ofJson _root_.id k := by
  refine ⟨⟨_, rfl⟩, fun m h => ?_⟩
  have L := fields_given (names := smKeyNames) (by decide +kernel) rfl (by decide +kernel) h
  simp only [List.mem_cons, List.not_mem_nil, or_false, forall_eq_or_imp, forall_eq] at L
  obtain ⟨l1, l2, l3, l4⟩ := L
  rw [SMKey.ofJson, u32Field_like (n := k.iteration) l1, bytesField_like (b := some k.iv) l2, bytesField_like (b := some k.cipherKey) l3,
    bytesField_like (b := some k.seed) l4]
  rfl

theorem SChainKey.json_like (k : SChainKey) : ReadsLike SChainKey.toJson SChainKey.ofJson _root_.id k := by
  refine ⟨⟨_, rfl⟩, fun m h => ?_⟩
  have L := fields_given (names := sChainKeyNames) (by decide +kernel) rfl (by decide +kernel) h
  simp only [List.mem_cons, List.not_mem_nil, or_false, forall_eq_or_imp, forall_eq] at L
  obtain ⟨l1, l2⟩ := L
  rw [SChainKey.ofJson, u32Field_like (n := k.iteration) l1, bytesField_like (b := some k.key) l2]
  rfl

theorem SKStateStruct.json_like (s : SKStateStruct) : ReadsLike SKStateStruct.toJson RawSKState.ofJson SKStateStruct.raw s := by
  refine ⟨⟨_, rfl⟩, fun m h => ?_⟩
  have L := fields_given (names := skStateNames) (by decide +kernel) rfl (by decide +kernel) h
  simp only [List.mem_cons, List.not_mem_nil, or_false, forall_eq_or_imp, forall_eq] at L
  obtain ⟨l1, l2, l3, l4, l5⟩ := L
  rw [RawSKState.ofJson, sliceField_like (f := SMKey.toJson) (g := _root_.id) (l := s.keys) l1 (fun k _ => SMKey.json_like k),
    u32Field_like (n := s.keyId) l2, ptrField_like' (f := SChainKey.toJson) (g := _root_.id) l3 (SChainKey.json_like s.chain),
    bytesField_like (b := s.signingPriv) l4, bytesField_like (b := some s.signingPub) l5]
  rfl

theorem senderKey_json_like (l : List SKStateStruct) : ReadsLike senderKeyJson rawSenderKey (fun l => l.map fun s => some s.raw) l := by
  refine ⟨⟨_, rfl⟩, fun m h => ?_⟩
  have L := fields_given (names := senderKeyNames) (by decide +kernel) rfl (by decide +kernel) h
  simp only [List.mem_cons, List.not_mem_nil, or_false, forall_eq_or_imp, forall_eq] at L
  have l1 := L
  rw [rawSenderKey, sliceField_like (f := SKStateStruct.toJson) (g := SKStateStruct.raw) (l := l) l1 (fun k _ => SKStateStruct.json_like k)]

end Verif

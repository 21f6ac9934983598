import Verif.Proofs.Json
import Verif.Model.JsonTypes
/-
JSON: every structure is read back from its text.
-/
set_option maxRecDepth 20000
namespace Verif

/-- The range of Go's int. -/
def InInt64 (v : Int) : Prop := -2 ^ 63 ≤ v ∧ v < 2 ^ 63

/-! ### Fields -/

theorem bytesField_get {names kvs name} {b : Option Bytes} (h : fieldVals names (ascii name) kvs = [jBytes b]) :
    bytesField names kvs name = some b := by
  rw [bytesField, h]
  cases b with
  | none => rfl
  | some b => simp [assign, jBytes, bytesStep, b64Dec_enc]

theorem u32Field_get {names kvs name} {n : UInt32} (h : fieldVals names (ascii name) kvs = [jU32 n]) :
    jsonU32 names kvs name = some n := by
  rw [jsonU32, h]
  have hn : n.toNat < 2 ^ 32 := n.toNat_lt
  simp only [assign, jU32, uintStep, parseNat_natDec, Option.bind_some, if_pos hn, Option.map_some, UInt32.ofNat_toNat]

theorem intStep_itoa (old v : Int) (h : InInt64 v) : intStep old (.num (itoa v)) = some v := by
  obtain ⟨h1, h2⟩ := h
  cases v with
  | ofNat n =>
    have hn : n < 2 ^ 63 := by simp only [Int.ofNat_eq_natCast] at h2; omega
    obtain ⟨c, t, e⟩ := List.exists_cons_of_ne_nil (natDec_ne_nil n)
    have hc : c ≠ 45 := by
      rintro rfl
      have := natDec_digits n 45 (by simp [e])
      revert this; simp [isDigit]
    rw [itoa, intStep]
    · simp only [parseNat_natDec, Option.bind_some, if_pos hn]; rfl
    · intro l hl
      rw [e] at hl
      simp only [List.cons.injEq] at hl
      exact hc hl.1
  | negSucc n =>
    have hn : n + 1 ≤ 2 ^ 63 := by omega
    simp only [itoa, intStep, parseNat_natDec, Option.bind_some, if_pos hn]
    congr 1

theorem intField_get {names kvs name} {v : Int} (h : fieldVals names (ascii name) kvs = [jInt v]) (hv : InInt64 v) :
    intField names kvs name = some v := by
  rw [intField, h]
  simp only [assign, jInt, intStep_itoa 0 v hv, Option.bind_some]

theorem boolField_get {names kvs name} {b : Bool} (h : fieldVals names (ascii name) kvs = [.bool b]) :
    boolField names kvs name = some b := by
  rw [boolField, h]; rfl

/-- `dec` reads back what `f` writes for `a`, as `g a`. -/
def Reads {α β : Type} (f : α → JVal) (dec : List (Bytes × JVal) → Option β) (g : α → β) (a : α) : Prop :=
  ∃ m, f a = .obj m ∧ dec m = some (g a)

theorem ptrField_get {α β : Type} {names kvs name} {f : α → JVal} {dec : List (Bytes × JVal) → Option β} {g : α → β} {o : Option α}
    (h : fieldVals names (ascii name) kvs = [jPtr f o]) (hd : ∀ a, o = some a → Reads f dec g a) :
    ptrField dec names kvs name = some (o.map g) := by
  rw [ptrField, h]
  cases o with
  | none => rfl
  | some a =>
    obtain ⟨m, e1, e2⟩ := hd a rfl
    simp [jPtr, e1, e2, assign, ptrStep]

theorem ptrField_get' {α β : Type} {names kvs name} {f : α → JVal} {dec : List (Bytes × JVal) → Option β} {g : α → β} {a : α}
    (h : fieldVals names (ascii name) kvs = [f a]) (hd : Reads f dec g a) :
    ptrField dec names kvs name = some (some (g a)) :=
  ptrField_get (o := some a) h (fun _ e => by cases e; exact hd)

theorem sliceField_get {α β : Type} {names kvs name} {f : α → JVal} {dec : List (Bytes × JVal) → Option β} {g : α → β} {l : List α}
    (h : fieldVals names (ascii name) kvs = [.arr (l.map f)]) (hd : ∀ a ∈ l, Reads f dec g a) :
    sliceField dec names kvs name = some (l.map fun a => some (g a)) := by
  rw [sliceField, h]
  have : sliceStep dec [] (.arr (l.map f)) = some (l.map fun a => some (g a)) := by
    rw [sliceStep]
    clear h
    induction l with
    | nil => rfl
    | cons a l ih =>
      obtain ⟨m, e1, e2⟩ := hd a (by simp)
      rw [List.map_cons, List.mapM_cons, ih (fun a ha => hd a (by simp [ha])), e1]
      simp [e2]
  simp only [assign, this, Option.bind_some]

/-! ### Plainness -/

theorem plain_jBytes (b : Option Bytes) : (jBytes b).plain := by
  cases b with
  | none => simp [jBytes, JVal.plain]
  | some b => simp only [jBytes, JVal.plain]; exact b64Enc_plain b

theorem plain_jU32 (n : UInt32) : (jU32 n).plain := by
  simp only [jU32, JVal.plain]; exact ⟨_, .inl rfl⟩

theorem plain_jInt (n : Int) : (jInt n).plain := by
  simp only [jInt, JVal.plain]; exact itoa_lit n

theorem plain_bool (b : Bool) : (JVal.bool b).plain := by simp [JVal.plain]

theorem plain_jPtr {α : Type} (f : α → JVal) (h : ∀ a, (f a).plain) (o : Option α) : (jPtr f o).plain := by
  cases o with
  | none => simp [jPtr, JVal.plain]
  | some a => exact h a

theorem plain_arr {α : Type} (f : α → JVal) (h : ∀ a, (f a).plain) (l : List α) : (JVal.arr (l.map f)).plain := by
  simp only [JVal.plain]
  induction l with
  | nil => simp [plainElems]
  | cons a l ih => simp only [List.map_cons, plainElems]; exact ⟨h a, ih⟩

theorem plain_jStruct (fields : List (String × JVal)) (hk : ((fields.map Prod.fst).all fun n => (ascii n).all plainChar) = true)
    (hv : ∀ f ∈ fields, f.2.plain) : (jStruct fields).plain := by
  simp only [jStruct, JVal.plain]
  induction fields with
  | nil => simp [plainMembers]
  | cons f fs ih =>
    simp only [List.map_cons, List.all_cons, Bool.and_eq_true] at hk
    simp only [List.map_cons, plainMembers]
    exact ⟨hk.1, hv f (by simp), ih hk.2 (fun g hg => hv g (by simp [hg]))⟩

/-! ### Depth -/

theorem depth_jBytes (b : Option Bytes) {n : Nat} : (jBytes b).depth ≤ n := by cases b <;> simp [jBytes, JVal.depth]
theorem depth_jU32 (k : UInt32) {n : Nat} : (jU32 k).depth ≤ n := by simp [jU32, JVal.depth]
theorem depth_jInt (k : Int) {n : Nat} : (jInt k).depth ≤ n := by simp [jInt, JVal.depth]
theorem depth_bool (b : Bool) {n : Nat} : (JVal.bool b).depth ≤ n := by simp [JVal.depth]
theorem depth_jPtr {α : Type} (f : α → JVal) {n : Nat} (h : ∀ a, (f a).depth ≤ n) (o : Option α) : (jPtr f o).depth ≤ n := by
  cases o with
  | none => simp [jPtr, JVal.depth]
  | some a => exact h a
theorem depth_arr {α : Type} (f : α → JVal) {n : Nat} (h : ∀ a, (f a).depth ≤ n) (l : List α) : (JVal.arr (l.map f)).depth ≤ n + 1 := by
  simp only [JVal.depth]
  have : depthElems (l.map f) ≤ n := by
    induction l with
    | nil => simp [depthElems]
    | cons a l ih => simp only [List.map_cons, depthElems]; have := h a; omega
  omega
theorem depth_jStruct (fields : List (String × JVal)) {n : Nat} (hv : ∀ f ∈ fields, f.2.depth ≤ n) : (jStruct fields).depth ≤ n + 1 := by
  suffices h : ∀ fs : List (String × JVal), (∀ f ∈ fs, f.2.depth ≤ n) → depthMembers (fs.map fun f => (ascii f.1, f.2)) ≤ n by
    rw [jStruct, JVal.depth]; exact Nat.succ_le_succ (h fields hv)
  intro fs h
  induction fs with
  | nil => simp [depthMembers]
  | cons f fs ih =>
    rw [List.map_cons, depthMembers]
    exact Nat.max_le.2 ⟨h f (by simp), ih (fun g hg => h g (by simp [hg]))⟩

/-- Finds the depth of a structure. -/
syntax "json_depth" : tactic

/-- Unmarshalling a marshalled structure. -/
theorem unmarshal_marshal {α β : Type} {f : α → JVal} {dec : List (Bytes × JVal) → Option β} {g : α → β} {a : α}
    (hp : (f a).plain) (h : Reads f dec g a) (hd : (f a).depth ≤ maxNestingDepth := by json_depth) : unmarshalJson dec (f a).enc = some (g a) := by
  obtain ⟨m, e1, e2⟩ := h
  rw [unmarshalJson, scan_enc _ hp, Option.bind_some, if_neg (Nat.not_lt.2 hd), e1]
  exact e2

/-! ### Messages -/

theorem SMStruct.json_reads (st : SMStruct) (hv : InInt64 st.version) : Reads SMStruct.toJson SMStruct.ofJson _root_.id st := by
  refine ⟨_, rfl, ?_⟩
  rw [SMStruct.ofJson, bytesField_get (b := st.ratchetKey) rfl, u32Field_get (n := st.counter) rfl, u32Field_get (n := st.previousCounter) rfl,
    bytesField_get (b := st.cipherText) rfl, intField_get (v := st.version) rfl hv, bytesField_get (b := st.mac) rfl]
  rfl

theorem SMStruct.json_plain (st : SMStruct) : st.toJson.plain :=
  plain_jStruct _ (by simp only [List.map]; decide +kernel) (by simp [plain_jBytes, plain_jU32, plain_jInt])
theorem SMStruct.json_depth (st : SMStruct) : st.toJson.depth ≤ 1 :=
  depth_jStruct _ (by
    simp only [List.mem_cons, List.not_mem_nil, or_false, forall_eq_or_imp, forall_eq, depth_jBytes, depth_jU32, depth_jInt, depth_bool, and_self])

theorem OptU32.json_reads (o : OptU32) : Reads OptU32.toJson OptU32.ofJson _root_.id o := by
  refine ⟨_, rfl, ?_⟩
  rw [OptU32.ofJson, u32Field_get (n := o.value) rfl, boolField_get (b := o.isEmpty) rfl]
  rfl

theorem OptU32.json_plain (o : OptU32) : o.toJson.plain :=
  plain_jStruct _ (by simp only [List.map]; decide +kernel) (by simp [plain_bool, plain_jU32])
theorem OptU32.json_depth (st : OptU32) : st.toJson.depth ≤ 1 :=
  depth_jStruct _ (by
    simp only [List.mem_cons, List.not_mem_nil, or_false, forall_eq_or_imp, forall_eq, depth_jBytes, depth_jU32, depth_jInt, depth_bool, and_self])

theorem PKStruct.json_reads (st : PKStruct) (hv : InInt64 st.version) : Reads PKStruct.toJson PKStruct.ofJson _root_.id st := by
  refine ⟨_, rfl, ?_⟩
  rw [PKStruct.ofJson, u32Field_get (n := st.registrationId) rfl,
    ptrField_get (f := OptU32.toJson) (o := st.preKeyId) (g := _root_.id) rfl (fun o _ => OptU32.json_reads o),
    u32Field_get (n := st.signedPreKeyId) rfl, bytesField_get (b := st.baseKey) rfl, bytesField_get (b := st.identityKey) rfl,
    bytesField_get (b := st.message) rfl, intField_get (v := st.version) rfl hv]
  simp

theorem PKStruct.json_plain (st : PKStruct) : st.toJson.plain :=
  plain_jStruct _ (by simp only [List.map]; decide +kernel) (by simp [plain_jBytes, plain_jU32, plain_jInt, plain_jPtr _ OptU32.json_plain])
theorem PKStruct.json_depth (st : PKStruct) : st.toJson.depth ≤ 2 :=
  depth_jStruct _ (by
    simp only [List.mem_cons, List.not_mem_nil, or_false, forall_eq_or_imp, forall_eq, depth_jBytes, depth_jU32, depth_jInt, depth_bool, depth_jPtr _ (fun a => OptU32.json_depth a), and_self])

theorem SKStruct.json_reads (st : SKStruct) : Reads SKStruct.toJson SKStruct.ofJson _root_.id st := by
  refine ⟨_, rfl, ?_⟩
  rw [SKStruct.ofJson, u32Field_get (n := st.id) rfl, u32Field_get (n := st.iteration) rfl, bytesField_get (b := st.cipherText) rfl,
    u32Field_get (n := st.version) rfl, bytesField_get (b := st.signature) rfl]
  rfl

theorem SKStruct.json_plain (st : SKStruct) : st.toJson.plain :=
  plain_jStruct _ (by simp only [List.map]; decide +kernel) (by simp [plain_jBytes, plain_jU32])
theorem SKStruct.json_depth (st : SKStruct) : st.toJson.depth ≤ 1 :=
  depth_jStruct _ (by
    simp only [List.mem_cons, List.not_mem_nil, or_false, forall_eq_or_imp, forall_eq, depth_jBytes, depth_jU32, depth_jInt, depth_bool, and_self])

theorem SKDStruct.json_reads (st : SKDStruct) : Reads SKDStruct.toJson SKDStruct.ofJson _root_.id st := by
  refine ⟨_, rfl, ?_⟩
  rw [SKDStruct.ofJson, u32Field_get (n := st.id) rfl, u32Field_get (n := st.iteration) rfl, bytesField_get (b := st.chainKey) rfl,
    bytesField_get (b := st.signingKey) rfl, u32Field_get (n := st.version) rfl]
  rfl

theorem SKDStruct.json_plain (st : SKDStruct) : st.toJson.plain :=
  plain_jStruct _ (by simp only [List.map]; decide +kernel) (by simp [plain_jBytes, plain_jU32])
theorem SKDStruct.json_depth (st : SKDStruct) : st.toJson.depth ≤ 1 :=
  depth_jStruct _ (by
    simp only [List.mem_cons, List.not_mem_nil, or_false, forall_eq_or_imp, forall_eq, depth_jBytes, depth_jU32, depth_jInt, depth_bool, and_self])

/-! ### Prekey records -/

theorem PreKeyStruct.json_reads (st : PreKeyStruct) : Reads PreKeyStruct.toJson PreKeyStruct.ofJson _root_.id st := by
  refine ⟨_, rfl, ?_⟩
  rw [PreKeyStruct.ofJson, u32Field_get (n := st.id) rfl, bytesField_get (b := some st.pub) rfl, bytesField_get (b := some st.priv) rfl]
  rfl

theorem PreKeyStruct.json_plain (st : PreKeyStruct) : st.toJson.plain :=
  plain_jStruct _ (by simp only [List.map]; decide +kernel) (by simp [plain_jBytes, plain_jU32])
theorem PreKeyStruct.json_depth (st : PreKeyStruct) : st.toJson.depth ≤ 1 :=
  depth_jStruct _ (by
    simp only [List.mem_cons, List.not_mem_nil, or_false, forall_eq_or_imp, forall_eq, depth_jBytes, depth_jU32, depth_jInt, depth_bool, and_self])

theorem inInt64_toInt (t : Int64) : InInt64 t.toInt := ⟨t.le_toInt, t.toInt_lt⟩

theorem SignedPreKeyStruct.json_reads (st : SignedPreKeyStruct) : Reads SignedPreKeyStruct.toJson SignedPreKeyStruct.ofJson _root_.id st := by
  refine ⟨_, rfl, ?_⟩
  rw [SignedPreKeyStruct.ofJson, u32Field_get (n := st.id) rfl, bytesField_get (b := some st.pub) rfl, bytesField_get (b := some st.priv) rfl,
    bytesField_get (b := some st.signature) rfl, intField_get (v := st.timestamp.toInt) rfl (inInt64_toInt _)]
  simp

theorem SignedPreKeyStruct.json_plain (st : SignedPreKeyStruct) : st.toJson.plain :=
  plain_jStruct _ (by simp only [List.map]; decide +kernel) (by simp [plain_jBytes, plain_jU32, plain_jInt])
theorem SignedPreKeyStruct.json_depth (st : SignedPreKeyStruct) : st.toJson.depth ≤ 1 :=
  depth_jStruct _ (by
    simp only [List.mem_cons, List.not_mem_nil, or_false, forall_eq_or_imp, forall_eq, depth_jBytes, depth_jU32, depth_jInt, depth_bool, and_self])

/-! ### Session records -/

theorem ChainKey.json_reads (k : ChainKey) : Reads ChainKey.toJson ChainKey.ofJson _root_.id k := by
  refine ⟨_, rfl, ?_⟩
  rw [ChainKey.ofJson, bytesField_get (b := some k.key) rfl, u32Field_get (n := k.index) rfl]
  rfl

theorem ChainKey.json_plain (k : ChainKey) : k.toJson.plain :=
  plain_jStruct _ (by simp only [List.map]; decide +kernel) (by simp [plain_jBytes, plain_jU32])
theorem ChainKey.json_depth (st : ChainKey) : st.toJson.depth ≤ 1 :=
  depth_jStruct _ (by
    simp only [List.mem_cons, List.not_mem_nil, or_false, forall_eq_or_imp, forall_eq, depth_jBytes, depth_jU32, depth_jInt, depth_bool, and_self])

theorem MsgKeys.json_reads (k : MsgKeys) : Reads MsgKeys.toJson MsgKeys.ofJson _root_.id k := by
  refine ⟨_, rfl, ?_⟩
  rw [MsgKeys.ofJson, bytesField_get (b := some k.cipherKey) rfl, bytesField_get (b := some k.macKey) rfl, bytesField_get (b := some k.iv) rfl,
    u32Field_get (n := k.index) rfl]
  rfl

theorem MsgKeys.json_plain (k : MsgKeys) : k.toJson.plain :=
  plain_jStruct _ (by simp only [List.map]; decide +kernel) (by simp [plain_jBytes, plain_jU32])
theorem MsgKeys.json_depth (st : MsgKeys) : st.toJson.depth ≤ 1 :=
  depth_jStruct _ (by
    simp only [List.mem_cons, List.not_mem_nil, or_false, forall_eq_or_imp, forall_eq, depth_jBytes, depth_jU32, depth_jInt, depth_bool, and_self])

/-- A chain structure as the decoder returns it. -/
def ChainStruct.raw (c : ChainStruct) : RawChain := ⟨c.ratchetPub, c.ratchetPriv, some c.chainKey, c.msgKeys.map some⟩

theorem ChainStruct.json_reads (c : ChainStruct) : Reads ChainStruct.toJson RawChain.ofJson ChainStruct.raw c := by
  refine ⟨_, rfl, ?_⟩
  rw [RawChain.ofJson, bytesField_get (b := some c.ratchetPub) rfl, bytesField_get (b := c.ratchetPriv) rfl,
    ptrField_get' (f := ChainKey.toJson) (g := _root_.id) rfl (ChainKey.json_reads c.chainKey),
    sliceField_get (f := MsgKeys.toJson) (g := _root_.id) rfl (fun k _ => MsgKeys.json_reads k)]
  rfl

theorem ChainStruct.json_plain (c : ChainStruct) : c.toJson.plain :=
  plain_jStruct _ (by simp only [List.map]; decide +kernel) (by simp only [List.mem_cons, List.not_mem_nil, or_false, forall_eq_or_imp, forall_eq, plain_jBytes,
    ChainKey.json_plain, plain_arr _ MsgKeys.json_plain, and_self])
theorem ChainStruct.json_depth (st : ChainStruct) : st.toJson.depth ≤ 3 :=
  depth_jStruct _ (by
    simp only [List.mem_cons, List.not_mem_nil, or_false, forall_eq_or_imp, forall_eq, depth_jBytes, depth_jU32, depth_jInt, depth_bool, Nat.le_succ_of_le (ChainKey.json_depth _), depth_arr _ MsgKeys.json_depth, and_self])

theorem PendingPreKeyStruct.json_reads (p : PendingPreKeyStruct) : Reads PendingPreKeyStruct.toJson PendingPreKeyStruct.ofJson _root_.id p := by
  refine ⟨_, rfl, ?_⟩
  rw [PendingPreKeyStruct.ofJson, ptrField_get (f := OptU32.toJson) (o := p.preKeyId) (g := _root_.id) rfl (fun o _ => OptU32.json_reads o),
    u32Field_get (n := p.signedPreKeyId) rfl, bytesField_get (b := some p.baseKey) rfl]
  simp

theorem PendingPreKeyStruct.json_plain (p : PendingPreKeyStruct) : p.toJson.plain :=
  plain_jStruct _ (by simp only [List.map]; decide +kernel) (by simp [plain_jBytes, plain_jU32, plain_jPtr _ OptU32.json_plain])
theorem PendingPreKeyStruct.json_depth (st : PendingPreKeyStruct) : st.toJson.depth ≤ 2 :=
  depth_jStruct _ (by
    simp only [List.mem_cons, List.not_mem_nil, or_false, forall_eq_or_imp, forall_eq, depth_jBytes, depth_jU32, depth_jInt, depth_bool, depth_jPtr _ OptU32.json_depth, and_self])

theorem PendingKeyExchangeStruct.json_reads (p : PendingKeyExchangeStruct) :
    Reads PendingKeyExchangeStruct.toJson PendingKeyExchangeStruct.ofJson _root_.id p := by
  refine ⟨_, rfl, ?_⟩
  rw [PendingKeyExchangeStruct.ofJson, u32Field_get (n := p.sequence) rfl, bytesField_get (b := some p.basePub) rfl,
    bytesField_get (b := some p.basePriv) rfl, bytesField_get (b := some p.ratchetPub) rfl, bytesField_get (b := some p.ratchetPriv) rfl,
    bytesField_get (b := some p.identityPub) rfl, bytesField_get (b := some p.identityPriv) rfl]
  rfl

theorem PendingKeyExchangeStruct.json_plain (p : PendingKeyExchangeStruct) : p.toJson.plain :=
  plain_jStruct _ (by simp only [List.map]; decide +kernel) (by simp [plain_jBytes, plain_jU32])
theorem PendingKeyExchangeStruct.json_depth (st : PendingKeyExchangeStruct) : st.toJson.depth ≤ 1 :=
  depth_jStruct _ (by
    simp only [List.mem_cons, List.not_mem_nil, or_false, forall_eq_or_imp, forall_eq, depth_jBytes, depth_jU32, depth_jInt, depth_bool, and_self])

/-- A state structure as the decoder returns it. -/
def StateStruct.raw (s : StateStruct) : RawState :=
  { localIdentity := s.localIdentity, localRegistrationId := s.localRegistrationId, needsRefresh := s.needsRefresh,
    pendingKeyExchange := s.pendingKeyExchange, pendingPreKey := s.pendingPreKey, previousCounter := s.previousCounter,
    receiverChains := s.receiverChains.map fun c => some c.raw, remoteIdentity := s.remoteIdentity,
    remoteRegistrationId := s.remoteRegistrationId, rootKey := s.rootKey, senderBaseKey := s.senderBaseKey,
    senderChain := s.senderChain.map ChainStruct.raw, version := s.version }

theorem StateStruct.json_reads (s : StateStruct) (hv : InInt64 s.version) : Reads StateStruct.toJson RawState.ofJson StateStruct.raw s := by
  refine ⟨_, rfl, ?_⟩
  rw [RawState.ofJson, bytesField_get (b := some s.localIdentity) rfl, u32Field_get (n := s.localRegistrationId) rfl,
    boolField_get (b := s.needsRefresh) rfl,
    ptrField_get (f := PendingKeyExchangeStruct.toJson) (o := s.pendingKeyExchange) (g := _root_.id) rfl (fun p _ => PendingKeyExchangeStruct.json_reads p),
    ptrField_get (f := PendingPreKeyStruct.toJson) (o := s.pendingPreKey) (g := _root_.id) rfl (fun p _ => PendingPreKeyStruct.json_reads p),
    u32Field_get (n := s.previousCounter) rfl,
    sliceField_get (f := ChainStruct.toJson) (g := ChainStruct.raw) (l := s.receiverChains) rfl (fun c _ => ChainStruct.json_reads c),
    bytesField_get (b := some s.remoteIdentity) rfl, u32Field_get (n := s.remoteRegistrationId) rfl, bytesField_get (b := some s.rootKey) rfl,
    bytesField_get (b := some s.senderBaseKey) rfl,
    ptrField_get (f := ChainStruct.toJson) (o := s.senderChain) (g := ChainStruct.raw) rfl (fun c _ => ChainStruct.json_reads c),
    intField_get (v := s.version) rfl hv]
  simp [StateStruct.raw]

theorem StateStruct.json_plain (s : StateStruct) : s.toJson.plain :=
  plain_jStruct _ (by simp only [List.map]; decide +kernel) (by
    simp only [List.mem_cons, List.not_mem_nil, or_false, forall_eq_or_imp, forall_eq, plain_jBytes, plain_jU32, plain_jInt, plain_bool,
      plain_jPtr _ PendingPreKeyStruct.json_plain, plain_jPtr _ PendingKeyExchangeStruct.json_plain, plain_jPtr _ ChainStruct.json_plain,
      plain_arr _ ChainStruct.json_plain, and_self])
theorem StateStruct.json_depth (st : StateStruct) : st.toJson.depth ≤ 5 :=
  depth_jStruct _ (by
    simp only [List.mem_cons, List.not_mem_nil, or_false, forall_eq_or_imp, forall_eq, depth_jBytes, depth_jU32, depth_jInt, depth_bool, Nat.le_trans (depth_jPtr _ PendingKeyExchangeStruct.json_depth _) (by decide : 1 ≤ 4), Nat.le_trans (depth_jPtr _ PendingPreKeyStruct.json_depth _) (by decide : 2 ≤ 4), Nat.le_trans (depth_jPtr _ ChainStruct.json_depth _) (by decide : 3 ≤ 4), depth_arr _ ChainStruct.json_depth, and_self])

def SessionStruct.raw (s : SessionStruct) : RawSession := ⟨some s.state.raw, s.previous.map fun p => some p.raw⟩

theorem SessionStruct.json_reads (s : SessionStruct) (hv : InInt64 s.state.version) (hp : ∀ p ∈ s.previous, InInt64 p.version) :
    Reads SessionStruct.toJson RawSession.ofJson SessionStruct.raw s := by
  refine ⟨_, rfl, ?_⟩
  rw [RawSession.ofJson, ptrField_get' (f := StateStruct.toJson) (g := StateStruct.raw) rfl (StateStruct.json_reads s.state hv),
    sliceField_get (f := StateStruct.toJson) (g := StateStruct.raw) (l := s.previous) rfl (fun c hc => StateStruct.json_reads c (hp c hc))]
  rfl

theorem SessionStruct.json_plain (s : SessionStruct) : s.toJson.plain :=
  plain_jStruct _ (by simp only [List.map]; decide +kernel) (by
    simp only [List.mem_cons, List.not_mem_nil, or_false, forall_eq_or_imp, forall_eq, StateStruct.json_plain,
      plain_arr _ StateStruct.json_plain, and_self])
theorem SessionStruct.json_depth (st : SessionStruct) : st.toJson.depth ≤ 7 :=
  depth_jStruct _ (by
    simp only [List.mem_cons, List.not_mem_nil, or_false, forall_eq_or_imp, forall_eq, depth_jBytes, depth_jU32, depth_jInt, depth_bool, Nat.le_succ_of_le (StateStruct.json_depth _), depth_arr _ StateStruct.json_depth, and_self])

/-! ### Rebuilding from what was decoded -/

theorem allSome_map {α : Type} (l : List α) : allSome (l.map some) = some l := by
  induction l with
  | nil => rfl
  | cons a l ih => simp [allSome, ih]

theorem Chain.ofRaw_raw (o : Option ChainStruct) : Chain.ofRaw (o.map ChainStruct.raw) = Chain.ofStruct o := by
  cases o with
  | none => rfl
  | some c =>
    simp only [Option.map_some, Chain.ofRaw, ChainStruct.raw, allSome_map, Chain.ofStruct]
    cases decodePoint c.ratchetPub <;> rfl

theorem SState.ofRaw_raw (s : StateStruct) : SState.ofRaw (some s.raw) = SState.ofStruct s := by
  have h : (s.receiverChains.map fun c => some c.raw).map Chain.ofRaw = s.receiverChains.map fun c => Chain.ofStruct (some c) := by
    rw [List.map_map]
    exact List.map_congr_left fun c _ => Chain.ofRaw_raw (some c)
  simp only [SState.ofRaw, StateStruct.raw, h, Chain.ofRaw_raw]
  rfl

theorem Rec.ofRaw_raw (s : SessionStruct) : Rec.ofRaw s.raw = Rec.ofStruct s := by
  have h : (s.previous.map fun p => some p.raw).map SState.ofRaw = s.previous.map SState.ofStruct := by
    rw [List.map_map]
    exact List.map_congr_left fun c _ => SState.ofRaw_raw c
  simp only [Rec.ofRaw, SessionStruct.raw, h, SState.ofRaw_raw, Rec.ofStruct]

/-! ### Sender key records -/

theorem SMKey.json_reads (k : SMKey) : Reads SMKey.toJson SMKey.ofJson _root_.id k := by
  refine ⟨_, rfl, ?_⟩
  rw [SMKey.ofJson, u32Field_get (n := k.iteration) rfl, bytesField_get (b := some k.iv) rfl, bytesField_get (b := some k.cipherKey) rfl,
    bytesField_get (b := some k.seed) rfl]
  rfl

theorem SMKey.json_plain (k : SMKey) : k.toJson.plain :=
  plain_jStruct _ (by simp only [List.map]; decide +kernel) (by simp [plain_jBytes, plain_jU32])
theorem SMKey.json_depth (st : SMKey) : st.toJson.depth ≤ 1 :=
  depth_jStruct _ (by
    simp only [List.mem_cons, List.not_mem_nil, or_false, forall_eq_or_imp, forall_eq, depth_jBytes, depth_jU32, depth_jInt, depth_bool, and_self])

theorem SChainKey.json_reads (k : SChainKey) : Reads SChainKey.toJson SChainKey.ofJson _root_.id k := by
  refine ⟨_, rfl, ?_⟩
  rw [SChainKey.ofJson, u32Field_get (n := k.iteration) rfl, bytesField_get (b := some k.key) rfl]
  rfl

theorem SChainKey.json_plain (k : SChainKey) : k.toJson.plain :=
  plain_jStruct _ (by simp only [List.map]; decide +kernel) (by simp [plain_jBytes, plain_jU32])
theorem SChainKey.json_depth (st : SChainKey) : st.toJson.depth ≤ 1 :=
  depth_jStruct _ (by
    simp only [List.mem_cons, List.not_mem_nil, or_false, forall_eq_or_imp, forall_eq, depth_jBytes, depth_jU32, depth_jInt, depth_bool, and_self])

def SKStateStruct.raw (s : SKStateStruct) : RawSKState := ⟨s.keys.map some, s.keyId, some s.chain, s.signingPriv, s.signingPub⟩

theorem SKStateStruct.json_reads (s : SKStateStruct) : Reads SKStateStruct.toJson RawSKState.ofJson SKStateStruct.raw s := by
  refine ⟨_, rfl, ?_⟩
  rw [RawSKState.ofJson, sliceField_get (f := SMKey.toJson) (g := _root_.id) (l := s.keys) rfl (fun k _ => SMKey.json_reads k),
    u32Field_get (n := s.keyId) rfl, ptrField_get' (f := SChainKey.toJson) (g := _root_.id) rfl (SChainKey.json_reads s.chain),
    bytesField_get (b := s.signingPriv) rfl, bytesField_get (b := some s.signingPub) rfl]
  rfl

theorem SKStateStruct.json_plain (s : SKStateStruct) : s.toJson.plain :=
  plain_jStruct _ (by simp only [List.map]; decide +kernel) (by
    simp only [List.mem_cons, List.not_mem_nil, or_false, forall_eq_or_imp, forall_eq, plain_jBytes, plain_jU32, SChainKey.json_plain,
      plain_arr _ SMKey.json_plain, and_self])
theorem SKStateStruct.json_depth (st : SKStateStruct) : st.toJson.depth ≤ 3 :=
  depth_jStruct _ (by
    simp only [List.mem_cons, List.not_mem_nil, or_false, forall_eq_or_imp, forall_eq, depth_jBytes, depth_jU32, depth_jInt, depth_bool, Nat.le_succ_of_le (SChainKey.json_depth _), depth_arr _ SMKey.json_depth, and_self])

theorem senderKey_json_reads (l : List SKStateStruct) : Reads senderKeyJson rawSenderKey (fun l => l.map fun s => some s.raw) l := by
  refine ⟨_, rfl, ?_⟩
  rw [rawSenderKey, sliceField_get (f := SKStateStruct.toJson) (g := SKStateStruct.raw) (l := l) rfl (fun k _ => SKStateStruct.json_reads k)]

theorem senderKey_json_plain (l : List SKStateStruct) : (senderKeyJson l).plain :=
  plain_jStruct _ (by simp only [List.map]; decide +kernel) (by
    simp only [List.mem_cons, List.not_mem_nil, or_false, forall_eq, plain_arr _ SKStateStruct.json_plain])
theorem senderKey_json_depth (l : List SKStateStruct) : (senderKeyJson l).depth ≤ 5 :=
  depth_jStruct _ (by simp only [List.mem_cons, List.not_mem_nil, or_false, forall_eq, depth_arr _ SKStateStruct.json_depth])

theorem SMStruct.json_shallow (st : SMStruct) : st.toJson.depth ≤ maxNestingDepth := Nat.le_trans st.json_depth (by decide)
theorem PKStruct.json_shallow (st : PKStruct) : st.toJson.depth ≤ maxNestingDepth := Nat.le_trans st.json_depth (by decide)
theorem SKStruct.json_shallow (st : SKStruct) : st.toJson.depth ≤ maxNestingDepth := Nat.le_trans st.json_depth (by decide)
theorem SKDStruct.json_shallow (st : SKDStruct) : st.toJson.depth ≤ maxNestingDepth := Nat.le_trans st.json_depth (by decide)
theorem PreKeyStruct.json_shallow (st : PreKeyStruct) : st.toJson.depth ≤ maxNestingDepth := Nat.le_trans st.json_depth (by decide)
theorem SignedPreKeyStruct.json_shallow (st : SignedPreKeyStruct) : st.toJson.depth ≤ maxNestingDepth := Nat.le_trans st.json_depth (by decide)
theorem StateStruct.json_shallow (st : StateStruct) : st.toJson.depth ≤ maxNestingDepth := Nat.le_trans st.json_depth (by decide)
theorem SessionStruct.json_shallow (st : SessionStruct) : st.toJson.depth ≤ maxNestingDepth := Nat.le_trans st.json_depth (by decide)
theorem SKStateStruct.json_shallow (st : SKStateStruct) : st.toJson.depth ≤ maxNestingDepth := Nat.le_trans st.json_depth (by decide)
theorem senderKey_json_shallow (l : List SKStateStruct) : (senderKeyJson l).depth ≤ maxNestingDepth := Nat.le_trans (senderKey_json_depth l) (by decide)

macro_rules
  | `(tactic| json_depth) => `(tactic| (with_reducible first | assumption | exact SMStruct.json_shallow _ | exact PKStruct.json_shallow _ | exact SKStruct.json_shallow _ | exact SKDStruct.json_shallow _ | exact PreKeyStruct.json_shallow _ | exact SignedPreKeyStruct.json_shallow _ | exact StateStruct.json_shallow _ | exact SessionStruct.json_shallow _ | exact SKStateStruct.json_shallow _ | exact senderKey_json_shallow _))


theorem SKState.ofRaw_raw (s : SKStateStruct) : SKState.ofRaw (some s.raw) = SKState.ofStruct s := by
  simp only [SKState.ofRaw, SKStateStruct.raw, allSome_map, SKState.ofStruct]
  cases decodePoint s.signingPub <;> rfl

/-! ### Bytes -/

/-- A stored session record is rebuilt from its bytes as from its structure. -/
theorem Rec.ofBytes_enc (s : SessionStruct) (hv : InInt64 s.state.version) (hp : ∀ p ∈ s.previous, InInt64 p.version) :
    Rec.ofBytes s.toJson.enc = Rec.ofStruct s := by
  rw [Rec.ofBytes, unmarshal_marshal s.json_plain (s.json_reads hv hp)]
  exact Rec.ofRaw_raw s

theorem GRec.ofBytes_enc (l : List SKStateStruct) : GRec.ofBytes (senderKeyJson l).enc = GRec.ofStruct l := by
  rw [GRec.ofBytes, unmarshal_marshal (senderKey_json_plain l) (senderKey_json_reads l)]
  have h : (l.map fun s => some s.raw).map SKState.ofRaw = l.map SKState.ofStruct := by
    rw [List.map_map]
    exact List.map_congr_left fun c _ => SKState.ofRaw_raw c
  simp only [h, GRec.ofStruct]

end Verif

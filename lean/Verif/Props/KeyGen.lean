import Verif.Model.PreKeys
import Verif.Proofs.Toy
/-
C36, C37, C22: key generation, prekey records.
-/
namespace Verif

/-- Clamping changes only the first and last byte, and there only the prescribed bits. -/
theorem clamp_bytes (k : Key32) (i : Nat) (h : i ≠ 0) (h' : i ≠ 31) : (clamp k).bytes[i]? = k.bytes[i]? := by
  simp [clamp, Ne.symm h, Ne.symm h']

/-- **C36 (generation).** Every generated key pair has a clamped private key and the public key
of exactly that private key; generation fails only when the random source fails. -/
theorem C36_generate (C : Crypto) (draw : Option Key32) :
    match generateKeyPair C draw with
    | .ok kp => ∃ p, kp.priv = some p ∧ IsClamped p ∧ kp.pub = C.basePub p ∧
        ∃ r, draw = some r ∧ ∀ i, i ≠ 0 → i ≠ 31 → p.bytes[i]? = r.bytes[i]?
    | .err e => e = .randFailure ∧ draw = none
    | .panic => False := by
  cases draw with
  | none => simp [generateKeyPair]
  | some r => exact ⟨clamp r, rfl, clamp_isClamped r, rfl, r, rfl, fun i h h' => clamp_bytes r i h h'⟩

/-- **C36 (import).** Importing any private key bytes gives a clamped key and its public key. -/
theorem C36_create (C : Crypto) (priv : Bytes) :
    ∃ p, (createKeyPair C priv).priv = some p ∧ IsClamped p ∧ (createKeyPair C priv).pub = C.basePub p :=
  ⟨_, rfl, clamp_isClamped _, rfl⟩

theorem u8_and248_fix (b : UInt8) (h : b.toNat % 8 = 0) : b &&& 248 = b := by
  revert b; exact forall_u8 (by decide +kernel)
theorem u8_top_fix (b : UInt8) (h : 64 ≤ b.toNat) (h' : b.toNat < 128) : (b &&& 127) ||| 64 = b := by
  revert b; exact forall_u8 (by decide +kernel)

/-- **C36 (re-import).** Importing an already clamped key returns that key. -/
theorem C36_create_clamped (C : Crypto) (k : Key32) (h : IsClamped k) :
    createKeyPair C k.bytes = ⟨C.basePub k, some k⟩ := by
  have : clamp k = k := by
    obtain ⟨⟨b, hb, hb8⟩, ⟨c, hc, hc1, hc2⟩⟩ := h
    apply Arr.ext
    apply List.ext_getElem?
    intro i
    by_cases h0 : i = 0
    · subst h0; simp [clamp, hb, u8_and248_fix b hb8]
    · by_cases h1 : i = 31
      · subst h1; simp [clamp, hc, u8_top_fix c hc1 hc2]
      · exact clamp_bytes k i h0 h1
  simp [createKeyPair, this]

/-- **C36 (serialised public keys).** A public key serialises to 33 bytes and parses back to itself. -/
theorem C36_pub_roundtrip (k : Key32) : (serPub k).length = 33 ∧ decodePoint (serPub k) = .ok k := by simp

example : ∃ kp, generateKeyPair Toy.C (some (Toy.key 255)) = .ok kp ∧ kp.priv ≠ some (Toy.key 255) :=
  ⟨_, rfl, by decide⟩

/-! ### C37 -/

theorem generatePreKeysLoop_ok (C : Crypto) (rng : Nat → Option Key32) (hr : ∀ n, (rng n).isSome) :
    ∀ (fuel : Nat) (i : Int) (pos : Nat) (acc : List PreKey),
      ∃ l, generatePreKeysLoop C rng fuel i pos acc = .ok (acc ++ l) ∧ l.length = fuel ∧
        ∀ (n : Nat) p, l[n]? = some p → p.struct.id = UInt32.ofInt (i + n)
  | 0, i, pos, acc => ⟨[], by simp [generatePreKeysLoop], rfl, by simp⟩
  | fuel + 1, i, pos, acc => by
    obtain ⟨r, hr'⟩ := Option.isSome_iff_exists.1 (hr pos)
    obtain ⟨l, h1, h2, h3⟩ := generatePreKeysLoop_ok C rng hr fuel (i + 1) (pos + 1)
      (acc ++ [newPreKey (UInt32.ofInt i) ⟨C.basePub (clamp r), clamp r⟩])
    refine ⟨newPreKey (UInt32.ofInt i) ⟨C.basePub (clamp r), clamp r⟩ :: l, ?_, by simp [h2], ?_⟩
    · rw [generatePreKeysLoop, hr']; simp only [generateIdPair]; rw [h1]; simp
    · intro n p hp
      cases n with
      | zero => simp at hp; subst hp; simp [newPreKey]
      | succ n =>
        simp at hp
        rw [h3 n p hp]; congr 1; omega

/-- **C37, partial (what the call really returns).** With a working random source the call
returns the prekeys with consecutive identifiers from `start` up to and including `count`, i.e.
`count - start + 1` of them (none when `count < start`): the second parameter acts as the last
identifier, not as the number of keys.  Missing: "yields count records", which is false (below). -/
theorem C37_generatePreKeys_partial (C : Crypto) (rng : Nat → Option Key32) (hr : ∀ n, (rng n).isSome)
    (start count : Int) (pos : Nat) :
    ∃ l, generatePreKeys C rng start count pos = .ok l ∧ (l.length : Int) = max 0 (count - start + 1) ∧
      ∀ (n : Nat) p, l[n]? = some p → p.struct.id = UInt32.ofInt (start + n) := by
  obtain ⟨l, h1, h2, h3⟩ := generatePreKeysLoop_ok C rng hr (count + 1 - start).toNat start pos []
  exact ⟨l, by simpa [generatePreKeys] using h1, by omega, h3⟩

/-- **C37 is false as stated:** `count` records are returned only when `start` is 1 (or nothing
is asked for). -/
theorem C37_generatePreKeys_false (C : Crypto) (rng : Nat → Option Key32) (hr : ∀ n, (rng n).isSome)
    (start count : Int) (pos : Nat) (hc : 0 < count) :
    (∃ l, generatePreKeys C rng start count pos = .ok l ∧ (l.length : Int) = count) ↔ start = 1 := by
  obtain ⟨l, h1, h2, _⟩ := C37_generatePreKeys_partial C rng hr start count pos
  constructor
  · rintro ⟨l', h1', h2'⟩
    rw [h1] at h1'; cases h1'
    omega
  · rintro rfl
    exact ⟨l, h1, by omega⟩

/-- C37: a failing random source makes the whole call fail. -/
theorem C37_random_failure (C : Crypto) (rng : Nat → Option Key32) (start count : Int) (pos n : Nat)
    (hn : rng (pos + n) = none) (hlt : (n : Int) < count - start + 1) :
    generatePreKeys C rng start count pos = .err .randFailure := by
  have key : ∀ (n fuel : Nat) (i : Int) (pos : Nat) (acc : List PreKey), rng (pos + n) = none → n < fuel →
      generatePreKeysLoop C rng fuel i pos acc = .err .randFailure := by
    intro n
    induction n with
    | zero =>
      intro fuel i pos acc h hf
      obtain ⟨f, rfl⟩ : ∃ f, fuel = f + 1 := ⟨fuel - 1, by omega⟩
      simp at h
      simp [generatePreKeysLoop, h, generateIdPair]
    | succ n ih =>
      intro fuel i pos acc h hf
      obtain ⟨f, rfl⟩ : ∃ f, fuel = f + 1 := ⟨fuel - 1, by omega⟩
      rw [generatePreKeysLoop]
      cases hp : rng pos with
      | none => simp [generateIdPair]
      | some r =>
        simp only [generateIdPair]
        exact ih f _ _ _ (by rw [← h]; congr 1; omega) (by omega)
  exact key n _ _ _ _ hn (by omega)

/-- C37 (last resort key): it always has identifier 0, which a first regular batch starting at 0
also uses. -/
theorem C37_last_resort_id (C : Crypto) (draw : Option Key32) (p : PreKey)
    (h : generateLastResortKey C draw = .ok p) : p.struct.id = 0 := by
  cases draw with
  | none => simp [generateLastResortKey, generateIdPair] at h
  | some r => simp [generateLastResortKey, generateIdPair, newPreKey] at h; rw [← h]

example : ∃ l, generatePreKeys Toy.C (fun _ => some (Toy.key 7)) 3 5 0 = .ok l ∧ l.map (·.struct.id) = [3, 4, 5] :=
  ⟨_, rfl, by decide⟩

/-- C36 for the prekey and identity helpers: every generated signed prekey carries a signature
that verifies under the identity key over the serialised public key. -/
theorem C36_signed_prekey_verifies (C : Crypto) (hs : C.SigLaw) (draw : Option Key32) (rand : Arr 64) (now : Int64)
    (idPriv : Key32) (hid : IsClamped idPriv) (id : UInt32) (p : SignedPreKey)
    (h : generateSignedPreKey C draw rand now idPriv id = .ok p) :
    C.verify (C.basePub idPriv) (serPub p.pair.pub) p.signature = true ∧ IsClamped p.pair.priv ∧
      p.pair.pub = C.basePub p.pair.priv ∧ p.struct.id = id ∧ p.struct.timestamp = now := by
  cases draw with
  | none => simp [generateSignedPreKey, generateIdPair] at h
  | some r =>
    simp [generateSignedPreKey, generateIdPair] at h
    subst h
    exact ⟨hs _ _ _ hid, clamp_isClamped r, rfl, rfl, rfl⟩

/-! ### C22 -/

/-- **C22, partial.** A reloaded prekey record keeps its identifier, its serialised form and its
private key.  Missing: the public key, which is wrong (below). -/
theorem C22_prekey_roundtrip_partial (id : UInt32) (kp : IdKeyPair) :
    let p := newPreKey id kp
    let q := PreKey.ofStruct p.struct
    q.id = p.id ∧ q.struct = p.struct ∧ q.pair.priv = p.pair.priv := by
  simp [newPreKey, PreKey.ofStruct, PreKey.id]

/-- **C22, partial.** The same for signed prekeys, with timestamp and signature. -/
theorem C22_signed_prekey_roundtrip_partial (id : UInt32) (t : Int64) (kp : IdKeyPair) (sig : Sig64) :
    let p := newSignedPreKey id t kp sig
    let q := SignedPreKey.ofStruct p.struct
    q.struct.id = p.struct.id ∧ q.struct.timestamp = p.struct.timestamp ∧ q.signature = p.signature ∧
      q.struct = p.struct ∧ q.pair.priv = p.pair.priv := by
  simp [newSignedPreKey, SignedPreKey.ofStruct]

/-- The public key a reloaded record reports: the type byte followed by the first 31 bytes. -/
theorem C22_reloaded_public_key (id : UInt32) (kp : IdKeyPair) :
    (PreKey.ofStruct (newPreKey id kp).struct).pair.pub.bytes = 5 :: kp.pub.bytes.take 31 := by
  have := kp.pub.len
  simp [newPreKey, PreKey.ofStruct, sliceToArray, copyInto, serPub, djbType, this]

/-- **C22 is false:** a record survives reloading only if its public key is the single key
consisting of 32 bytes 5; every other prekey comes back with another public key. -/
theorem C22_prekey_roundtrip_false (id : UInt32) (kp : IdKeyPair) :
    (PreKey.ofStruct (newPreKey id kp).struct).pair = kp ↔ kp.pub.bytes = List.replicate 32 5 := by
  have hb := C22_reloaded_public_key id kp
  have hp : (PreKey.ofStruct (newPreKey id kp).struct).pair.priv = kp.priv := by simp [newPreKey, PreKey.ofStruct]
  constructor
  · intro h
    rw [h] at hb
    have hl := kp.pub.len
    generalize kp.pub.bytes = l at hb hl
    have h1 : ∀ n, n < 32 → l[n]? = some 5 := by
      intro n
      induction n with
      | zero => intro _; rw [hb]; rfl
      | succ n ih =>
        intro hn
        rw [hb, List.getElem?_cons_succ, List.getElem?_take_of_lt (by omega)]
        exact ih (by omega)
    apply List.ext_getElem?
    intro i
    by_cases hi : i < 32
    · rw [h1 i hi]; rw [List.getElem?_replicate, if_pos hi]
    · rw [List.getElem?_eq_none (by omega), List.getElem?_eq_none (by simp; omega)]
  · intro h
    have : (PreKey.ofStruct (newPreKey id kp).struct).pair.pub = kp.pub := by
      apply Arr.ext; rw [hb, h]; decide
    generalize (PreKey.ofStruct (newPreKey id kp).struct).pair = q at this hp
    cases q; cases kp
    simp only at this hp
    rw [this, hp]

/-- The same for signed prekeys: after a reload the published key no longer matches the
signature's subject. -/
theorem C22_signed_prekey_roundtrip_false (id : UInt32) (t : Int64) (kp : IdKeyPair) (sig : Sig64) :
    (SignedPreKey.ofStruct (newSignedPreKey id t kp sig).struct).pair.pub.bytes = 5 :: kp.pub.bytes.take 31 := by
  have := kp.pub.len
  simp [newSignedPreKey, SignedPreKey.ofStruct, sliceToArray, copyInto, serPub, djbType, this]

example : (PreKey.ofStruct (newPreKey 4 (Toy.idPair 9)).struct).pair ≠ Toy.idPair 9 := by decide

end Verif

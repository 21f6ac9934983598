import Verif.Model.Json
import Verif.Proofs.Basic
import Mathlib.Data.List.TakeDrop
/-
JSON: what is written is read back.
-/
set_option linter.unusedSimpArgs false
namespace Verif

/-! ### base64 -/

theorem b64Val_char (n : Nat) (h : n < 64) : b64Val (b64Char n) = some n ∧ b64Char n ≠ 61 ∧ b64Char n ≠ 13 ∧ b64Char n ≠ 10 ∧
    b64Char n ≠ 34 ∧ b64Char n ≠ 92 ∧ ¬ b64Char n < 32 := by
  revert n
  decide

theorem u8_lt (a : UInt8) : a.toNat < 256 := a.toNat_lt

theorem b64_ofNat (a : UInt8) (n : Nat) (h : n = a.toNat) : UInt8.ofNat n = a := by
  subst h; exact UInt8.ofNat_toNat

/-- Characters of base64 text: not a quote, backslash, control character, CR or LF. -/
def plainChar (c : UInt8) : Bool := c ≠ 34 && c ≠ 92 && !(c < 32)

theorem b64Enc_plain (b : Bytes) : (b64Enc b).all plainChar = true := by
  have pc : ∀ n, n < 64 → plainChar (b64Char n) = true := by decide
  induction b using b64Enc.induct with
  | case1 => rfl
  | case2 a =>
    have := u8_lt a
    simp only [b64Enc, List.all_cons, List.all_nil, Bool.and_true, pc (a.toNat / 4) (by omega), pc (a.toNat % 4 * 16) (by omega)]
    decide
  | case3 a b =>
    have := u8_lt a
    have := u8_lt b
    simp only [b64Enc, List.all_cons, List.all_nil, Bool.and_true, pc (a.toNat / 4) (by omega),
      pc (a.toNat % 4 * 16 + b.toNat / 16) (by omega), pc (b.toNat % 16 * 4) (by omega)]
    decide
  | case4 a b c s ih =>
    have := u8_lt a
    have := u8_lt b
    have := u8_lt c
    simp only [b64Enc, List.all_cons, Bool.and_true, pc (a.toNat / 4) (by omega), ih,
      pc (a.toNat % 4 * 16 + b.toNat / 16) (by omega), pc (b.toNat % 16 * 4 + c.toNat / 64) (by omega), pc (c.toNat % 64) (by omega)]

theorem filter_plain (s : Bytes) (h : s.all plainChar = true) : s.filter (fun c => !(c = 13 || c = 10)) = s := by
  rw [List.filter_eq_self]
  intro c hc
  have h1 := List.all_eq_true.1 h c hc
  by_cases h13 : c = 13
  · subst h13; revert h1; decide
  · by_cases h10 : c = 10
    · subst h10; revert h1; decide
    · simp [h13, h10]

theorem b64Groups_enc (b : Bytes) : b64Groups (b64Enc b) = some b := by
  induction b using b64Enc.induct with
  | case1 => rfl
  | case2 a =>
    have := u8_lt a
    have e1 := b64Val_char (a.toNat / 4) (by omega)
    have e2 := b64Val_char (a.toNat % 4 * 16) (by omega)
    simp only [b64Enc, b64Groups, e1.1, e2.1, Option.bind_some, Option.map_some]
    rw [b64_ofNat a _ (by omega)]
  | case3 a b =>
    have := u8_lt a
    have := u8_lt b
    have e1 := b64Val_char (a.toNat / 4) (by omega)
    have e2 := b64Val_char (a.toNat % 4 * 16 + b.toNat / 16) (by omega)
    have e3 := b64Val_char (b.toNat % 16 * 4) (by omega)
    rw [b64Enc, b64Groups]
    · simp only [e1.1, e2.1, e3.1, Option.bind_some, Option.map_some]
      rw [b64_ofNat a _ (by omega), b64_ofNat b _ (by omega)]
    · exact fun h => absurd h e3.2.1
  | case4 a b c s ih =>
    have := u8_lt a
    have := u8_lt b
    have := u8_lt c
    have e1 := b64Val_char (a.toNat / 4) (by omega)
    have e2 := b64Val_char (a.toNat % 4 * 16 + b.toNat / 16) (by omega)
    have e3 := b64Val_char (b.toNat % 16 * 4 + c.toNat / 64) (by omega)
    have e4 := b64Val_char (c.toNat % 64) (by omega)
    rw [b64Enc, b64Groups]
    · simp only [e1.1, e2.1, e3.1, e4.1, ih, Option.bind_some, Option.map_some]
      rw [b64_ofNat a _ (by omega), b64_ofNat b _ (by omega), b64_ofNat c _ (by omega)]
    · exact fun _ h => absurd h e4.2.1
    · exact fun h => absurd h e4.2.1

theorem unquote_plain (s : Bytes) (h : s.all plainChar = true) : unquote s = s := by
  induction s with
  | nil => rfl
  | cons c s ih =>
    simp only [List.all_cons, Bool.and_eq_true] at h
    have h92 : c ≠ 92 := by rintro rfl; simp [plainChar] at h
    rw [unquote, unquoteFrom]
    · exact congrArg _ (ih h.2)
    · intro a b c d s e; exact absurd e h92
    · intro a s e; exact absurd e h92

theorem b64Dec_enc (b : Bytes) : b64Dec (unquote (b64Enc b)) = some b := by
  rw [unquote_plain _ (b64Enc_plain b), b64Dec, filter_plain _ (b64Enc_plain b), b64Groups_enc]

/-! ### Numbers -/

theorem isDec_of_isDigit {x : UInt8} (h : isDigit x) : isDec x = true := by
  obtain ⟨h1, h2⟩ := h
  simp only [isDec, Bool.and_eq_true, decide_eq_true_eq, UInt8.le_iff_toNat_le]
  exact ⟨h1, h2⟩

theorem natDec_all (n : Nat) : (natDec n).all isDec = true :=
  List.all_eq_true.2 fun x hx => isDec_of_isDigit (natDec_digits n x hx)

theorem natDecAux_head : ∀ (fuel n : Nat) (acc : Bytes), n < fuel → 0 < n → ∃ c r, natDecAux fuel n acc = c :: r ∧ c ≠ 48
  | 0, n, acc, h, _ => by omega
  | fuel + 1, n, acc, h, h0 => by
    rw [natDecAux]
    split
    · refine ⟨_, _, rfl, ?_⟩
      intro e
      have := digitChar_toNat n
      rw [e] at this
      have h48 : (48 : UInt8).toNat = 48 := rfl
      omega
    · exact natDecAux_head fuel (n / 10) _ (by omega) (by omega)

theorem natDec_head (n : Nat) (h : 0 < n) : ∃ c r, natDec n = c :: r ∧ c ≠ 48 := natDecAux_head _ _ _ (by omega) h

theorem parseNat_natDec (n : Nat) : parseNat (natDec n) = some n := by
  have h : ¬ ((natDec n = [] || !(natDec n).all isDec) = true) := by
    simp [natDec_ne_nil, natDec_all]
  rw [parseNat, if_neg h]
  exact congrArg some (natDec_eq n)

/-- What may follow a value inside a text: nothing, a comma or a closing bracket. -/
def Stop (r : Bytes) : Prop := r = [] ∨ ∃ c s, r = c :: s ∧ (c = 44 ∨ c = 93 ∨ c = 125)

theorem span_digits (d r : Bytes) (hd : d.all isDec = true) (hr : Stop r) : (d ++ r).span isDec = (d, r) := by
  rw [List.span_eq_takeWhile_dropWhile]
  have hd' := List.all_eq_true.1 hd
  rw [List.takeWhile_append_of_pos hd', List.dropWhile_append_of_pos hd']
  rcases hr with rfl | ⟨c, s, rfl, rfl | rfl | rfl⟩ <;> simp [isDec]

theorem scanInt_natDec (n : Nat) (r : Bytes) (hr : Stop r) : scanInt (natDec n ++ r) = some (natDec n, r) := by
  rcases Nat.eq_zero_or_pos n with rfl | h
  · rfl
  · obtain ⟨c, t, e, hc⟩ := natDec_head n h
    have hs := span_digits (natDec n) r (natDec_all n) hr
    rw [e] at hs ⊢
    rw [List.cons_append] at hs ⊢
    rw [scanInt]
    · rw [scanDigits, hs]
    · intro s' e'
      simp only [List.cons.injEq] at e'
      exact hc e'.1

theorem scanFrac_stop (r : Bytes) (hr : Stop r) : scanFrac r = some ([], r) := by
  rcases hr with rfl | ⟨c, s, rfl, rfl | rfl | rfl⟩ <;> rfl

theorem scanExp_stop (r : Bytes) (hr : Stop r) : scanExp r = some ([], r) := by
  rcases hr with rfl | ⟨c, s, rfl, rfl | rfl | rfl⟩ <;> rfl

/-- The decimal text of an integer. -/
def IntLit (l : Bytes) : Prop := ∃ n : Nat, l = natDec n ∨ l = 45 :: natDec n

theorem scanNum_lit (l r : Bytes) (hl : IntLit l) (hr : Stop r) : scanNum (l ++ r) = some (l, r) := by
  obtain ⟨n, rfl | rfl⟩ := hl
  · obtain ⟨c, t, e⟩ : ∃ c t, natDec n = c :: t := List.exists_cons_of_ne_nil (natDec_ne_nil n)
    have hc : c ≠ 45 := by
      rintro rfl
      have := natDec_digits n 45 (by simp [e])
      revert this; simp [isDigit]
    have h := scanInt_natDec n r hr
    rw [scanNum]
    · dsimp only
      simp only [h, Option.bind_some, scanFrac_stop r hr, scanExp_stop r hr, Option.map_some]
      simp
    · intro s' e'
      rw [e] at e'
      simp only [List.cons_append, List.cons.injEq] at e'
      exact absurd e'.1 hc
  · have h := scanInt_natDec n r hr
    simp only [scanNum, List.cons_append, h, Option.bind_some, scanFrac_stop r hr, scanExp_stop r hr, Option.map_some]
    simp

theorem itoa_lit (v : Int) : IntLit (itoa v) := by
  cases v with
  | ofNat n => exact ⟨n, .inl rfl⟩
  | negSucc n => exact ⟨n + 1, .inr rfl⟩

/-! ### Scanning what was written -/

theorem scanStr_plain (s r : Bytes) (h : s.all plainChar = true) : scanStr (s ++ 34 :: r) = some (s, r) := by
  induction s with
  | nil => rfl
  | cons c s ih =>
    simp only [List.all_cons, Bool.and_eq_true] at h
    have hc := h.1
    simp only [plainChar, Bool.and_eq_true, decide_eq_true_eq, Bool.not_eq_true', decide_eq_false_iff_not] at hc
    obtain ⟨⟨h1, h2⟩, h3⟩ := hc
    have hn : ¬ ((decide (c < 32) || decide (c = 92)) = true) := by simp [h2, h3]
    rw [List.cons_append, scanStr]
    · rw [if_neg hn, ih h.2]; rfl
    · exact h1
    · intro a b e; exact absurd e h2

mutual
/-- Values `json.Marshal` writes: integers and strings without escapes. -/
def JVal.plain : JVal → Prop
  | .null => True
  | .bool _ => True
  | .num l => IntLit l
  | .str s => s.all plainChar = true
  | .arr vs => plainElems vs
  | .obj kvs => plainMembers kvs
def plainElems : List JVal → Prop
  | [] => True
  | v :: vs => v.plain ∧ plainElems vs
def plainMembers : List (Bytes × JVal) → Prop
  | [] => True
  | (k, v) :: ms => k.all plainChar = true ∧ v.plain ∧ plainMembers ms
end

theorem skipWs_cons (c : UInt8) (s : Bytes) (h : isWs c = false) : skipWs (c :: s) = c :: s := by
  simp [skipWs, h]

theorem expect_append (p s : Bytes) : expect p (p ++ s) = some s := by
  induction p with
  | nil => rfl
  | cons c p ih => simp [expect, ih]

/-- The first character of a number. -/
theorem lit_head (l : Bytes) (h : IntLit l) : ∃ c t, l = c :: t ∧ (c = 45 ∨ isDec c = true) := by
  obtain ⟨n, rfl | rfl⟩ := h
  · obtain ⟨c, t, e⟩ := List.exists_cons_of_ne_nil (natDec_ne_nil n)
    exact ⟨c, t, e, .inr (isDec_of_isDigit (natDec_digits n c (by simp [e])))⟩
  · exact ⟨45, _, rfl, .inl rfl⟩

theorem numStart (c : UInt8) (h : c = 45 ∨ isDec c = true) :
    isWs c = false ∧ c ≠ 123 ∧ c ≠ 91 ∧ c ≠ 34 ∧ c ≠ 116 ∧ c ≠ 102 ∧ c ≠ 110 ∧ c ≠ 93 ∧ c ≠ 125 := by
  rcases h with rfl | h
  · decide
  · simp only [isDec, Bool.and_eq_true, decide_eq_true_eq, UInt8.le_iff_toNat_le] at h
    have h48 : (48 : UInt8).toNat = 48 := rfl
    have h57 : (57 : UInt8).toNat = 57 := rfl
    rw [h48, h57] at h
    have aux : ∀ k : UInt8, 57 < k.toNat → c ≠ k := by rintro k hk rfl; omega
    refine ⟨?_, aux _ (by decide), aux _ (by decide), ?_, aux _ (by decide), aux _ (by decide), aux _ (by decide), aux _ (by decide), aux _ (by decide)⟩
    · have aux2 : ∀ k : UInt8, k.toNat < 48 → c ≠ k := by rintro k hk rfl; omega
      simp [isWs, aux2 32 (by decide), aux2 9 (by decide), aux2 13 (by decide), aux2 10 (by decide)]
    · rintro rfl; revert h; decide

/-- A written value starts with a character that is neither white space nor a closing bracket. -/
theorem enc_head (v : JVal) (h : v.plain) : ∃ c t, v.enc = c :: t ∧ isWs c = false ∧ c ≠ 93 ∧ c ≠ 125 := by
  cases v with
  | null => exact ⟨_, _, rfl, by decide, by decide, by decide⟩
  | bool b => cases b <;> exact ⟨_, _, rfl, by decide, by decide, by decide⟩
  | num l =>
    rw [JVal.plain] at h
    obtain ⟨c, t, e, hc⟩ := lit_head l h
    have := numStart c hc
    exact ⟨c, t, by rw [JVal.enc, e], this.1, this.2.2.2.2.2.2.2⟩
  | str s => exact ⟨34, s ++ [34], by rw [JVal.enc], by decide, by decide, by decide⟩
  | arr vs => exact ⟨91, encElems vs ++ [93], by rw [JVal.enc], by decide, by decide, by decide⟩
  | obj vs => exact ⟨123, encMembers vs ++ [125], by rw [JVal.enc], by decide, by decide, by decide⟩

theorem skipWs_stop (r : Bytes) (h : Stop r) : skipWs r = r := by
  rcases h with rfl | ⟨c, s, rfl, rfl | rfl | rfl⟩ <;> rfl

theorem encElems_head (v : JVal) (vs : List JVal) (h : v.plain) :
    ∃ c t, encElems (v :: vs) = c :: t ∧ isWs c = false ∧ c ≠ 93 ∧ c ≠ 125 := by
  obtain ⟨c, t, e, hc⟩ := enc_head v h
  cases vs with
  | nil => exact ⟨c, t, by rw [encElems, e], hc⟩
  | cons w vs => exact ⟨c, t ++ 44 :: encElems (w :: vs), by rw [encElems, e, List.cons_append], hc⟩

theorem encMembers_head (k : Bytes) (v : JVal) (ms : List (Bytes × JVal)) : ∃ t, encMembers ((k, v) :: ms) = 34 :: t := by
  cases ms with
  | nil => exact ⟨_, by rw [encMembers]⟩
  | cons m ms => exact ⟨_, by rw [encMembers]; rfl⟩

mutual
theorem scanValue_enc : ∀ (v : JVal) (n : Nat) (r : Bytes), v.plain → Stop r → 2 * v.enc.length + 1 ≤ n →
    scanValue n (v.enc ++ r) = some (v, r)
  | .null, n + 1, r, _, _, _ => by
    show scanValue (n + 1) (110 :: (ascii "ull" ++ r)) = _
    rw [scanValue, skipWs_cons _ _ (by decide)]
    simp only [expect_append, Option.map_some]
  | .bool true, n + 1, r, _, _, _ => by
    show scanValue (n + 1) (116 :: (ascii "rue" ++ r)) = _
    rw [scanValue, skipWs_cons _ _ (by decide)]
    simp only [expect_append, Option.map_some]
  | .bool false, n + 1, r, _, _, _ => by
    show scanValue (n + 1) (102 :: (ascii "alse" ++ r)) = _
    rw [scanValue, skipWs_cons _ _ (by decide)]
    simp only [expect_append, Option.map_some]
  | .num l, n + 1, r, h, hr, _ => by
    rw [JVal.plain] at h
    rw [JVal.enc]
    have hs := scanNum_lit l r h hr
    obtain ⟨c, t, e, hc⟩ := lit_head l h
    obtain ⟨h1, h2, h3, h4, h5, h6, h7, -⟩ := numStart c hc
    rw [e, List.cons_append] at hs ⊢
    rw [scanValue, skipWs_cons _ _ h1]
    split <;> rename_i e' <;> first | (simp only [List.cons.injEq] at e'; exact absurd e'.1 (by assumption)) | skip
    rw [hs]; rfl
  | .str s, n + 1, r, h, _, _ => by
    rw [JVal.plain] at h
    rw [JVal.enc, List.cons_append, List.append_assoc, scanValue, skipWs_cons _ _ (by decide)]
    simp only [List.singleton_append, scanStr_plain s r h, Option.map_some]
  | .arr [], n + 1, r, _, _, _ => by
    rw [JVal.enc, encElems, List.cons_append, scanValue, skipWs_cons _ _ (by decide)]
    rfl
  | .arr (v :: vs), n + 1, r, h, _, hn => by
    rw [JVal.plain] at h
    rw [JVal.enc] at hn
    simp only [List.length_cons, List.length_append] at hn
    have ih := scanElems_enc v vs n r h (by omega)
    rw [plainElems] at h
    obtain ⟨c, t, e, hc, hc', -⟩ := encElems_head v vs h.1
    rw [JVal.enc, List.cons_append, scanValue, skipWs_cons _ _ (by decide)]
    simp only [List.append_assoc, List.singleton_append]
    rw [e, List.cons_append] at ih ⊢
    rw [skipWs_cons _ _ hc]
    split
    · rename_i e'
      simp only [List.cons.injEq] at e'
      exact absurd e'.1 hc'
    · rw [ih]; rfl
  | .obj [], n + 1, r, _, _, _ => by
    rw [JVal.enc, encMembers, List.cons_append, scanValue, skipWs_cons _ _ (by decide)]
    rfl
  | .obj ((k, v) :: ms), n + 1, r, h, _, hn => by
    rw [JVal.plain] at h
    rw [JVal.enc] at hn
    simp only [List.length_cons, List.length_append] at hn
    have ih := scanMembers_enc k v ms n r h (by omega)
    obtain ⟨t, e⟩ := encMembers_head k v ms
    rw [JVal.enc, List.cons_append, scanValue, skipWs_cons _ _ (by decide)]
    simp only [List.append_assoc, List.singleton_append]
    rw [e, List.cons_append] at ih ⊢
    rw [skipWs_cons _ _ (by decide)]
    show (scanMembers n (34 :: (t ++ 125 :: r))).map _ = _
    rw [ih]; rfl
theorem scanElems_enc : ∀ (v : JVal) (vs : List JVal) (n : Nat) (r : Bytes), plainElems (v :: vs) →
    2 * (encElems (v :: vs)).length + 2 ≤ n → scanElems n (encElems (v :: vs) ++ 93 :: r) = some (v :: vs, r)
  | v, [], n + 1, r, h, hn => by
    rw [plainElems] at h
    rw [encElems] at hn ⊢
    rw [scanElems, scanValue_enc v n (93 :: r) h.1 (.inr ⟨93, r, rfl, by simp⟩) (by omega)]
    simp only [Option.bind_some]
    rw [skipWs_cons _ _ (by decide)]
    rfl
  | v, w :: vs, n + 1, r, h, hn => by
    rw [plainElems] at h
    rw [encElems] at hn ⊢
    simp only [List.length_cons, List.length_append] at hn
    rw [List.append_assoc, List.cons_append, scanElems,
      scanValue_enc v n (44 :: (encElems (w :: vs) ++ 93 :: r)) h.1 (.inr ⟨44, _, rfl, by simp⟩) (by omega)]
    simp only [Option.bind_some]
    rw [skipWs_cons _ _ (by decide)]
    simp only
    rw [scanElems_enc w vs n r h.2 (by omega)]
    rfl
theorem scanMembers_enc : ∀ (k : Bytes) (v : JVal) (ms : List (Bytes × JVal)) (n : Nat) (r : Bytes), plainMembers ((k, v) :: ms) →
    2 * (encMembers ((k, v) :: ms)).length + 2 ≤ n →
    scanMembers n (encMembers ((k, v) :: ms) ++ 125 :: r) = some ((k, v) :: ms, r)
  | k, v, [], n + 1, r, h, hn => by
    rw [plainMembers] at h
    rw [encMembers] at hn ⊢
    simp only [List.length_cons, List.length_append] at hn
    simp only [List.cons_append, List.append_assoc]
    rw [scanMembers, skipWs_cons _ _ (by decide)]
    simp only
    rw [scanStr_plain k _ h.1]
    simp only [Option.bind_some]
    rw [skipWs_cons _ _ (by decide)]
    simp only
    rw [scanValue_enc v n (125 :: r) h.2.1 (.inr ⟨125, r, rfl, by simp⟩) (by omega)]
    simp only [Option.bind_some]
    rw [skipWs_cons _ _ (by decide)]
    rfl
  | k, v, (k', v') :: ms, n + 1, r, h, hn => by
    rw [plainMembers] at h
    rw [encMembers] at hn ⊢
    simp only [List.length_cons, List.length_append, List.cons_append] at hn
    simp only [List.cons_append, List.append_assoc]
    rw [scanMembers, skipWs_cons _ _ (by decide)]
    simp only
    rw [scanStr_plain k _ h.1]
    simp only [Option.bind_some]
    rw [skipWs_cons _ _ (by decide)]
    simp only
    rw [scanValue_enc v n (44 :: (encMembers ((k', v') :: ms) ++ 125 :: r)) h.2.1 (.inr ⟨44, _, rfl, by simp⟩) (by omega)]
    simp only [Option.bind_some]
    rw [skipWs_cons _ _ (by decide)]
    simp only
    rw [scanMembers_enc k' v' ms n r h.2.2 (by omega)]
    rfl
end

/-- **What `json.Marshal` writes the scanner reads back.** -/
theorem scan_enc (v : JVal) (h : v.plain) : scan v.enc = some v := by
  have := scanValue_enc v (2 * v.enc.length + 2) [] h (.inl rfl) (by omega)
  rw [List.append_nil] at this
  rw [scan, this]
  rfl

end Verif

import Verif.Spec.JsonText
import Verif.Proofs.JsonTypes
import Verif.Proofs.JsonPrefix
/- The scanner of Model/Json.lean reads every text of Spec/JsonText.lean. -/
set_option linter.unusedSimpArgs false
namespace Verif
open Spec

mutual
/-- The document a scanned value stands for. -/
def JVal.den : JVal → Doc
  | .null => .null
  | .bool b => .bool b
  | .num l => .num l
  | .str s => .str (unquote s)
  | .arr vs => .arr (denElems vs)
  | .obj kvs => .obj (denMembers kvs)
def denElems : List JVal → List Doc
  | [] => []
  | v :: vs => v.den :: denElems vs
def denMembers : List (Bytes × JVal) → List (Bytes × Doc)
  | [] => []
  | (k, v) :: ms => (unquote k, v.den) :: denMembers ms
end

mutual
theorem den_depth : ∀ v : JVal, v.den.depth = v.depth
  | .null => by simp [JVal.den, Doc.depth, JVal.depth]
  | .bool _ => by simp [JVal.den, Doc.depth, JVal.depth]
  | .num _ => by simp [JVal.den, Doc.depth, JVal.depth]
  | .str _ => by simp [JVal.den, Doc.depth, JVal.depth]
  | .arr vs => by rw [JVal.den, Doc.depth, JVal.depth, denElems_depth vs]
  | .obj ms => by rw [JVal.den, Doc.depth, JVal.depth, denMembers_depth ms]
theorem denElems_depth : ∀ vs : List JVal, elemsDepth (denElems vs) = depthElems vs
  | [] => by simp [denElems, elemsDepth, depthElems]
  | v :: vs => by rw [denElems, elemsDepth, depthElems, den_depth v, denElems_depth vs]
theorem denMembers_depth : ∀ ms : List (Bytes × JVal), membersDepth (denMembers ms) = depthMembers ms
  | [] => by simp [denMembers, membersDepth, depthMembers]
  | (k, v) :: ms => by rw [denMembers, membersDepth, depthMembers, den_depth v, denMembers_depth ms]
end

theorem shallow_iff (v : JVal) : v.den.Shallow ↔ ¬ maxNestingDepth < v.depth := by
  rw [Doc.Shallow, den_depth, Nat.not_lt]; rfl

theorem denMembers_eq (m : List (Bytes × JVal)) : denMembers m = m.map fun p => (unquote p.1, p.2.den) := by
  induction m with
  | nil => simp [denMembers]
  | cons p m ih => obtain ⟨k, v⟩ := p; simp [denMembers, ih]

theorem denElems_eq (m : List JVal) : denElems m = m.map JVal.den := by
  induction m with
  | nil => simp [denElems]
  | cons p m ih => simp [denElems, ih]

/-! ### Strings -/

theorem hexDigit_val {c : UInt8} {n : Nat} (h : HexDigit c n) : isHex c = true ∧ hexVal c = n ∧ n < 16 := by
  have hn : n < 16 := by
    rcases h with h | h
    · have := (List.getElem?_eq_some_iff.1 h).1
      exact this
    · have := (List.getElem?_eq_some_iff.1 h).1
      exact this
  have key : ∀ n : Fin 16, (∀ c, (ascii "0123456789abcdef")[n.val]? = some c → isHex c = true ∧ hexVal c = n.val) ∧
      (∀ c, (ascii "0123456789ABCDEF")[n.val]? = some c → isHex c = true ∧ hexVal c = n.val) := by
    intro n
    have h1 : ∀ n : Fin 16, (ascii "0123456789abcdef")[n.val]?.all (fun c => decide (isHex c = true ∧ hexVal c = n.val)) = true ∧
      (ascii "0123456789ABCDEF")[n.val]?.all (fun c => decide (isHex c = true ∧ hexVal c = n.val)) = true := by decide +kernel
    obtain ⟨a, b⟩ := h1 n
    constructor
    · intro c hc; rw [hc] at a; simpa using a
    · intro c hc; rw [hc] at b; simpa using b
  rcases h with h | h
  · obtain ⟨a, b⟩ := (key ⟨n, hn⟩).1 c h
    exact ⟨a, b, hn⟩
  · obtain ⟨a, b⟩ := (key ⟨n, hn⟩).2 c h
    exact ⟨a, b, hn⟩

theorem hexDigit_of (c : UInt8) (h : isHex c = true) : HexDigit c (hexVal c) := by
  have key : ∀ n : Fin 256, isHex (UInt8.ofNat n.val) = true → (ascii "0123456789abcdef")[hexVal (UInt8.ofNat n.val)]? = some (UInt8.ofNat n.val) ∨
      (ascii "0123456789ABCDEF")[hexVal (UInt8.ofNat n.val)]? = some (UInt8.ofNat n.val) := by decide +kernel
  have := key ⟨c.toNat, c.toNat_lt⟩
  simp only [UInt8.ofNat_toNat] at this
  exact this h

theorem hex4_val {a b c d : UInt8} {n : Nat} (h : Hex4 a b c d n) :
    (isHex a && isHex b && isHex c && isHex d) = true ∧ hex4 a b c d = n ∧ n < 65536 := by
  obtain ⟨i, j, k, l, ha, hb, hc, hd, hn⟩ := h
  obtain ⟨a1, a2, a3⟩ := hexDigit_val ha
  obtain ⟨b1, b2, b3⟩ := hexDigit_val hb
  obtain ⟨c1, c2, c3⟩ := hexDigit_val hc
  obtain ⟨d1, d2, d3⟩ := hexDigit_val hd
  refine ⟨by simp [a1, b1, c1, d1], ?_, by omega⟩
  rw [hex4, a2, b2, c2, d2]; omega

theorem hex4_of {a b c d : UInt8} (h : (isHex a && isHex b && isHex c && isHex d) = true) : Hex4 a b c d (hex4 a b c d) := by
  simp only [Bool.and_eq_true] at h
  obtain ⟨⟨⟨ha, hb⟩, hc⟩, hd⟩ := h
  exact ⟨_, _, _, _, hexDigit_of a ha, hexDigit_of b hb, hexDigit_of c hc, hexDigit_of d hd, by rw [hex4]; omega⟩

theorem runeBytes_eq {n : Nat} (h : n < 0xD800 ∨ 0xE000 ≤ n) (h2 : n < 0x110000) : runeBytes n = String.utf8EncodeChar (Char.ofNat n) := by
  have hv : (Char.ofNat n).val.toNat = n := by
    have hval : n.isValidChar := by
      rcases h with h | h
      · exact .inl h
      · exact .inr ⟨by omega, by omega⟩
    simp only [Char.ofNat, hval, dif_pos]
    simp [Char.ofNatAux]
  simp only [runeBytes, String.utf8EncodeChar, hv]
  by_cases h3 : n < 0x80
  · rw [if_pos h3, if_pos (show n ≤ 127 by omega)]
  · rw [if_neg h3, if_neg (show ¬ n ≤ 127 by omega)]
    by_cases h4 : n < 0x800
    · rw [if_pos h4, if_pos (show n ≤ 2047 by omega)]
      rw [show n / 64 % 32 + 192 = 192 + n / 64 by omega, Nat.add_comm (n % 64)]
    · rw [if_neg h4, if_neg (show ¬ n ≤ 2047 by omega)]
      by_cases h5 : n < 0x10000
      · rw [if_pos h5, if_pos (show n ≤ 65535 by omega)]
        rw [show n / 4096 % 16 + 224 = 224 + n / 4096 by omega, Nat.add_comm (n / 64 % 64), Nat.add_comm (n % 64)]
      · rw [if_neg h5, if_neg (show ¬ n ≤ 65535 by omega)]
        rw [show n / 262144 % 8 + 240 = 240 + n / 262144 by omega, Nat.add_comm (n / 4096 % 64), Nat.add_comm (n / 64 % 64), Nat.add_comm (n % 64)]

/-- decode.go `unquote` on one \u escape. -/
theorem unquote_unicode {a b c d : UInt8} {t : Bytes} (h : ¬ High (hex4 a b c d)) (h' : ¬ Low (hex4 a b c d)) :
    unquote (92 :: 117 :: a :: b :: c :: d :: t) = runeBytes (hex4 a b c d) ++ unquote t := by
  unfold High at h; unfold Low at h'
  rw [unquote, unquoteFrom, if_neg (by simp), if_neg, unquote]
  simp only [surrogate, Bool.and_eq_true, decide_eq_true_eq]
  omega

theorem unquote_pair {a b c d e f g h : UInt8} {t : Bytes} (h1 : High (hex4 a b c d)) (h2 : Low (hex4 e f g h)) :
    unquote (92 :: 117 :: a :: b :: c :: d :: 92 :: 117 :: e :: f :: g :: h :: t) =
      runeBytes ((hex4 a b c d - 0xD800) * 1024 + (hex4 e f g h - 0xDC00) + 0x10000) ++ unquote t := by
  unfold High at h1; unfold Low at h2
  rw [unquote, unquoteFrom, if_neg (by simp), if_pos]
  · simp only [pairWith, pairRune]
    rw [if_pos (by omega)]
    simp only
    rw [unquoteFrom, if_pos rfl]
    rfl
  · simp only [surrogate, Bool.and_eq_true, decide_eq_true_eq]
    omega

theorem unquote_half {a b c d : UInt8} {t : Bytes} (h1 : High (hex4 a b c d) ∨ Low (hex4 a b c d))
    (h2 : ∀ e f g h u, t = 92 :: 117 :: e :: f :: g :: h :: u → ¬ (High (hex4 a b c d) ∧ Low (hex4 e f g h))) :
    unquote (92 :: 117 :: a :: b :: c :: d :: t) = runeBytes 0xFFFD ++ unquote t := by
  unfold High Low at *
  have hp : pairWith (hex4 a b c d) t = none := by
    rw [pairWith.eq_def]
    split
    · rename_i e f g h s'
      have := h2 e f g h s' rfl
      rw [pairRune, if_neg (by omega)]
    · rfl
  rw [unquote, unquoteFrom, if_neg (by simp), if_pos]
  · rw [hp]; rfl
  · simp only [surrogate, Bool.and_eq_true, decide_eq_true_eq]
    omega

theorem unquote_escape {c : UInt8} {t : Bytes} (h : c ≠ 117) : unquote (92 :: c :: t) =
    (if c = 98 then 8 else if c = 102 then 12 else if c = 110 then 10 else if c = 114 then 13 else if c = 116 then 9 else c) :: unquote t := by
  rw [unquote, unquoteFrom, unquote]
  intro a b c d s' e'; exact absurd e' h

theorem unquote_char {c : UInt8} {t : Bytes} (h : c ≠ 92) : unquote (c :: t) = c :: unquote t := by
  rw [unquote, unquoteFrom, unquote]
  · intro a b c d s' e'; exact absurd e' h
  · intro a s' e'; exact absurd e' h

theorem strText_scan {s t : Bytes} (h : StrText s t) (r : Bytes) : scanStr (t ++ 34 :: r) = some (t, r) ∧ unquote t = s := by
  have step : ∀ {a b c d : UInt8} {n : Nat} {t r : Bytes}, Hex4 a b c d n → scanStr (t ++ 34 :: r) = some (t, r) →
      scanStr (92 :: 117 :: a :: b :: c :: d :: t ++ 34 :: r) = some (92 :: 117 :: a :: b :: c :: d :: t, r) := by
    intro a b c d n t r h ih
    simp only [List.cons_append]
    rw [scanStr]
    simp only [if_true, (hex4_val h).1, ih, Option.map_some]
  induction h with
  | nil => exact ⟨rfl, rfl⟩
  | @raw s t c h1 h2 h3 _ ih =>
    have hn : ¬ ((decide (c < 32) || decide (c = 92)) = true) := by
      simp only [h3, decide_false, Bool.or_false, decide_eq_true_eq]
      exact UInt8.not_lt.2 h1
    constructor
    · rw [List.cons_append, scanStr]
      · rw [if_neg hn, ih.1]; rfl
      · exact h2
      · intro a b e; exact absurd e h3
    · rw [unquote_char h3, ih.2]
  | @escape s t e c hm _ ih =>
    simp only [shortEscapes, List.mem_cons, Prod.mk.injEq, List.not_mem_nil, or_false] at hm
    have he : e ≠ 117 := by rintro rfl; revert hm; simp
    have hc : (if e = 98 then (8 : UInt8) else if e = 102 then 12 else if e = 110 then 10 else if e = 114 then 13 else if e = 116 then 9 else e) = c ∧
        (e = 98 || e = 102 || e = 110 || e = 114 || e = 116 || e = 92 || e = 47 || e = 34) = true := by
      rcases hm with ⟨rfl, rfl⟩ | ⟨rfl, rfl⟩ | ⟨rfl, rfl⟩ | ⟨rfl, rfl⟩ | ⟨rfl, rfl⟩ | ⟨rfl, rfl⟩ | ⟨rfl, rfl⟩ | ⟨rfl, rfl⟩ <;> decide
    constructor
    · rw [List.cons_append, List.cons_append, scanStr.eq_def]
      simp only [he, if_false]
      rw [if_pos hc.2, ih.1]
      rfl
    · rw [unquote_escape he, hc.1, ih.2]
  | @unicode s t a b c d n hn h1 h2 _ ih =>
    obtain ⟨x1, x2, x3⟩ := hex4_val hn
    refine ⟨step hn ih.1, ?_⟩
    subst x2
    rw [unquote_unicode h1 h2, ih.2, runeBytes_eq (by unfold High at h1; unfold Low at h2; omega) (by omega)]
  | @pair s t a b c d e f g h m n hm hn h1 h2 _ ih =>
    obtain ⟨x1, x2, x3⟩ := hex4_val hm
    obtain ⟨y1, y2, y3⟩ := hex4_val hn
    refine ⟨step hm (step hn ih.1), ?_⟩
    subst x2 y2
    rw [unquote_pair h1 h2, ih.2, runeBytes_eq (.inr (by omega)) (by unfold High at h1; unfold Low at h2; omega),
      show ∀ x y : Nat, x * 1024 + y + 0x10000 = 0x10000 + x * 1024 + y from fun x y => by omega]
  | @half s t a b c d m hm h1 h2 _ ih =>
    obtain ⟨x1, x2, x3⟩ := hex4_val hm
    refine ⟨step hm ih.1, ?_⟩
    subst x2
    rw [unquote_half h1, ih.2, runeBytes_eq (.inr (by omega)) (by omega)]
    rintro e f g h u rfl ⟨h3, h4⟩
    refine h2 ⟨h3, e, f, g, h, _, u, rfl, hex4_of ?_, h4⟩
    have := ih.1
    simp only [List.cons_append] at this
    rw [scanStr] at this
    by_cases hx : (isHex e && isHex f && isHex g && isHex h) = true
    · exact hx
    · simp only [if_true, hx] at this
      cases this

/-- What the string scanner accepts is written as `StrText` says. -/
theorem scanStr_text (n : Nat) : ∀ {s t r : Bytes}, s.length ≤ n → scanStr s = some (t, r) → s = t ++ 34 :: r ∧ StrText (unquote t) t := by
  induction n with
  | zero =>
    intro s t r hl h
    cases s with
    | nil => cases h
    | cons c s => simp at hl
  | succ n ih =>
    intro s t r hl h
    match s, hl, h with
    | [], _, h => cases h
    | c :: s, hl, h =>
      simp only [List.length_cons] at hl
      by_cases h34 : c = 34
      · subst h34
        rw [scanStr] at h
        simp only [Option.some.injEq, Prod.mk.injEq] at h
        obtain ⟨rfl, rfl⟩ := h
        exact ⟨rfl, .nil⟩
      · by_cases h92 : c = 92
        · subst h92
          match s, hl, h with
          | [], _, h => simp [scanStr] at h
          | c :: s, hl, h =>
            simp only [List.length_cons] at hl
            rw [scanStr_esc] at h
            by_cases hu : c = 117
            · rw [if_pos hu] at h
              match s, hl, h with
              | [], _, h => cases h
              | [_], _, h => cases h
              | [_, _], _, h => cases h
              | [_, _, _], _, h => cases h
              | x :: y :: z :: w :: s', hl, h =>
                simp only [List.length_cons] at hl
                simp only at h
                by_cases hx : (isHex x && isHex y && isHex z && isHex w) = true
                · rw [if_pos hx] at h
                  obtain ⟨q, e1, e2⟩ := map_pair_some (f := fun q => 92 :: c :: x :: y :: z :: w :: q) h
                  obtain ⟨h1, h2⟩ := ih (by omega) e1
                  subst hu e2
                  clear h
                  refine ⟨by simp [h1], ?_⟩
                  have hh := hex4_of hx
                  by_cases hs : High (hex4 x y z w) ∨ Low (hex4 x y z w)
                  · by_cases hp : ∃ e f g i u, q = 92 :: 117 :: e :: f :: g :: i :: u ∧ High (hex4 x y z w) ∧ Low (hex4 e f g i)
                    · obtain ⟨e, f, g, i, u, rfl, hi, lo⟩ := hp
                      simp only [h1, List.cons_append] at e1
                      rw [scanStr_esc, if_pos rfl] at e1
                      simp only at e1
                      by_cases hy : (isHex e && isHex f && isHex g && isHex i) = true
                      · rw [if_pos hy] at e1
                        obtain ⟨q, e3, e4⟩ := map_pair_some (f := fun q => 92 :: 117 :: e :: f :: g :: i :: q) e1
                        simp only [List.cons.injEq, true_and] at e4
                        subst e4
                        obtain ⟨-, h4⟩ := ih (by rw [h1] at hl; simp only [List.cons_append, List.length_cons] at hl; omega) e3
                        rw [unquote_pair hi lo, runeBytes_eq (.inr (by omega)) (by unfold High at hi; unfold Low at lo; omega),
                          show ∀ x y : Nat, x * 1024 + y + 0x10000 = 0x10000 + x * 1024 + y from fun x y => by omega]
                        exact .pair hh (hex4_of hy) hi lo h4
                      · rw [if_neg hy] at e1; cases e1
                    · rw [unquote_half hs (fun e f g i u e1 e2 => hp ⟨e, f, g, i, u, e1, e2⟩), runeBytes_eq (.inr (by omega)) (by omega)]
                      refine .half hh hs ?_ h2
                      rintro ⟨hi, e, f, g, i, n, u, rfl, hn, lo⟩
                      rw [← (hex4_val hn).2.1] at lo
                      exact hp ⟨e, f, g, i, u, rfl, hi, lo⟩
                  · have ⟨s1, s2⟩ := not_or.1 hs
                    rw [unquote_unicode s1 s2, runeBytes_eq (by unfold High at s1; unfold Low at s2; omega) (by have := (hex4_val hh).2.2; omega)]
                    exact .unicode hh s1 s2 h2
                · rw [if_neg hx] at h; cases h
            · rw [if_neg hu] at h
              split at h
              · rename_i hc
                obtain ⟨q, e1, e2⟩ := map_pair_some (f := fun q => 92 :: c :: q) h
                obtain ⟨h1, h2⟩ := ih (by omega) e1
                subst e2
                refine ⟨by simp [h1], ?_⟩
                rw [unquote_escape hu]
                refine .escape c _ ?_ h2
                simp only [Bool.or_eq_true, decide_eq_true_eq] at hc
                rcases hc with ((((((rfl | rfl) | rfl) | rfl) | rfl) | rfl) | rfl) | rfl <;> simp [shortEscapes]
              · cases h
        · rw [scanStr_char _ _ h34 h92] at h
          split at h
          · cases h
          · rename_i hc
            obtain ⟨q, e1, e2⟩ := map_pair_some h
            obtain ⟨h1, h2⟩ := ih (by omega) e1
            subst e2
            refine ⟨by simp [h1], ?_⟩
            rw [unquote_char h92]
            simp only [Bool.or_eq_true, decide_eq_true_eq, not_or] at hc
            exact .raw c (UInt8.not_lt.1 hc.1) h34 h92 h2

/-! ### Numbers -/

/-- What may follow a value: nothing, white space, a comma or a closing bracket. -/
def Ends (r : Bytes) : Prop := r = [] ∨ ∃ c s, r = c :: s ∧ (c = 32 ∨ c = 9 ∨ c = 10 ∨ c = 13 ∨ c = 44 ∨ c = 93 ∨ c = 125)

theorem digit_iff (c : UInt8) : Digit c → isDec c = true := by
  intro h
  have : ∀ c ∈ ascii "0123456789", isDec c = true := by decide
  exact this c h

/-- Not the start of more digits. -/
def NoDigit (r : Bytes) : Prop := ∀ c s, r = c :: s → isDec c = false

theorem scanDigits_app {d r : Bytes} (hd : Digits d) (hr : NoDigit r) : scanDigits (d ++ r) = some (d, r) := by
  have hs : (d ++ r).span isDec = (d, r) := by
    rw [List.span_eq_takeWhile_dropWhile]
    have hd' : ∀ c ∈ d, isDec c = true := fun c hc => digit_iff c (hd.2 c hc)
    rw [List.takeWhile_append_of_pos hd', List.dropWhile_append_of_pos hd']
    cases r with
    | nil => simp
    | cons c s => simp [hr c s rfl]
  obtain ⟨c, t, e⟩ := List.exists_cons_of_ne_nil hd.1
  subst e
  rw [scanDigits, hs]

theorem Ends.noDigit {r : Bytes} (h : Ends r) : NoDigit r := by
  rintro c s rfl
  rcases h with h | ⟨c', s', e, h⟩
  · cases h
  · cases e; rcases h with rfl | rfl | rfl | rfl | rfl | rfl | rfl <;> rfl

theorem scanExp_app {x r : Bytes} (hr : Ends r) (hx : x = [] ∨ ∃ e s d, (e = ascii "e" ∨ e = ascii "E") ∧ (s = [] ∨ s = ascii "+" ∨ s = ascii "-") ∧
    Digits d ∧ x = e ++ s ++ d) : scanExp (x ++ r) = some (x, r) := by
  rcases hx with rfl | ⟨e, s, d, he, hs, hd, rfl⟩
  · rw [List.nil_append]
    rcases hr with rfl | ⟨c, s, rfl, h⟩
    · rfl
    · rcases h with rfl | rfl | rfl | rfl | rfl | rfl | rfl <;> rfl
  · have key := scanDigits_app hd hr.noDigit
    obtain ⟨c, t, e'⟩ := List.exists_cons_of_ne_nil hd.1
    have hc := digit_iff c (hd.2 c (by simp [e']))
    have hcc : ¬ ((decide (c = 43) || decide (c = 45)) = true) := by
      have : ∀ x : UInt8, isDec x = true → x ≠ 43 ∧ x ≠ 45 := by
        intro x hx; constructor <;> (rintro rfl; revert hx; decide)
      simp [this c hc]
    have h101 : ∀ (q : UInt8), q = 101 ∨ q = 69 → (decide (q = 101) || decide (q = 69)) = true := by rintro q (rfl | rfl) <;> rfl
    have he' : ∃ q, e = [q] ∧ (q = 101 ∨ q = 69) := by
      rcases he with rfl | rfl
      · exact ⟨101, rfl, .inl rfl⟩
      · exact ⟨69, rfl, .inr rfl⟩
    obtain ⟨q, rfl, hq⟩ := he'
    rcases hs with rfl | rfl | rfl
    · subst e'
      show scanExp (q :: c :: (t ++ r)) = some (q :: c :: t, r)
      rw [scanExp.eq_def]
      dsimp only
      rw [if_pos (h101 q hq)]
      rw [if_neg hcc]
      simp only [List.cons_append] at key
      rw [key]; rfl
    · show scanExp (q :: 43 :: (d ++ r)) = _
      rw [scanExp.eq_def]
      dsimp only
      rw [if_pos (h101 q hq)]
      rw [if_pos (by decide), key]; rfl
    · show scanExp (q :: 45 :: (d ++ r)) = _
      rw [scanExp.eq_def]
      dsimp only
      rw [if_pos (h101 q hq)]
      rw [if_pos (by decide), key]; rfl

/-- What may follow the digits before an exponent. -/
theorem exp_head {x r : Bytes} (hr : Ends r) (hx : x = [] ∨ ∃ e s d, (e = ascii "e" ∨ e = ascii "E") ∧ (s = [] ∨ s = ascii "+" ∨ s = ascii "-") ∧
    Digits d ∧ x = e ++ s ++ d) : ∀ c s, x ++ r = c :: s → isDec c = false ∧ c ≠ 46 := by
  intro c s h
  rcases hx with rfl | ⟨e, g, d, he, hs, hd, rfl⟩
  · rw [List.nil_append] at h
    rcases hr with rfl | ⟨c', s', rfl, h'⟩
    · cases h
    · cases h
      rcases h' with rfl | rfl | rfl | rfl | rfl | rfl | rfl <;> decide
  · rcases he with rfl | rfl
    · have : c = 101 := by
        have : (ascii "e" ++ g ++ d ++ r) = 101 :: (g ++ d ++ r) := rfl
        rw [this] at h; cases h; rfl
      subst this; decide
    · have : c = 69 := by
        have : (ascii "E" ++ g ++ d ++ r) = 69 :: (g ++ d ++ r) := rfl
        rw [this] at h; cases h; rfl
      subst this; decide

theorem numText_scan {l r : Bytes} (h : NumText l) (hr : Ends r) : scanNum (l ++ r) = some (l, r) ∧ ∃ c t, l = c :: t ∧ (c = 45 ∨ isDec c = true) := by
  obtain ⟨sign, int, frac, ex, rfl, hs, hi, hf, hx⟩ := h
  have e3 := scanExp_app hr hx
  have hh := exp_head hr hx
  have e2 : scanFrac (frac ++ (ex ++ r)) = some (frac, ex ++ r) := by
    rcases hf with rfl | ⟨d, hd, rfl⟩
    · rw [List.nil_append, scanFrac_other (fun u e => (hh _ _ e).2 rfl)]
    · show scanFrac (46 :: (d ++ (ex ++ r))) = _
      rw [scanFrac, scanDigits_app hd (fun c s e => (hh c s e).1)]
      rfl
  have hfh : NoDigit (frac ++ (ex ++ r)) := by
    rcases hf with rfl | ⟨d, hd, rfl⟩
    · exact fun c s e => (hh c s e).1
    · intro c s e
      have : c = 46 := by
        have : (ascii "." ++ d ++ (ex ++ r)) = 46 :: (d ++ (ex ++ r)) := rfl
        rw [this] at e; cases e; rfl
      subst this; decide
  have e1 : scanInt (int ++ (frac ++ (ex ++ r))) = some (int, frac ++ (ex ++ r)) := by
    rcases hi with rfl | ⟨hd, h0⟩
    · rfl
    · rw [scanInt_other, scanDigits_app hd hfh]
      intro u e
      obtain ⟨c, t, e'⟩ := List.exists_cons_of_ne_nil hd.1
      rw [e'] at e h0
      simp only [List.cons_append, List.cons.injEq] at e
      simp [e.1] at h0
  have hint : ∃ c t, int = c :: t ∧ isDec c = true := by
    rcases hi with rfl | ⟨hd, -⟩
    · exact ⟨48, [], rfl, by decide⟩
    · obtain ⟨c, t, e'⟩ := List.exists_cons_of_ne_nil hd.1
      exact ⟨c, t, e', digit_iff c (hd.2 c (by simp [e']))⟩
  have body : ∀ g, scanBody g (int ++ (frac ++ (ex ++ r))) = some (g ++ int ++ frac ++ ex, r) := by
    intro g
    simp only [scanBody, e1, Option.bind_some, e2, e3, Option.map_some]
  obtain ⟨c, t, ei, hc⟩ := hint
  rcases hs with rfl | rfl
  · refine ⟨?_, c, t ++ frac ++ ex, by simp [ei], .inr hc⟩
    simp only [List.nil_append, List.append_assoc]
    rw [scanNum_other]
    · have := body []
      simpa [List.append_assoc] using this
    · intro u e
      rw [ei] at e
      simp only [List.cons_append, List.cons.injEq] at e
      rw [e.1] at hc
      revert hc; decide
  · refine ⟨?_, 45, int ++ frac ++ ex, by simp [ascii], .inl rfl⟩
    have : (ascii "-" ++ int ++ frac ++ ex ++ r) = 45 :: (int ++ (frac ++ (ex ++ r))) := by simp [ascii]
    rw [this, scanNum_neg, body]
    simp [ascii]

/-! ### White space -/

theorem ws_isWs {w : Bytes} (h : Ws w) : ∀ c ∈ w, isWs c = true := by
  intro c hc
  rcases h c hc with rfl | rfl | rfl | rfl <;> rfl

theorem skipWs_app {w : Bytes} (h : Ws w) (s : Bytes) : skipWs (w ++ s) = skipWs s := by
  unfold skipWs
  exact List.dropWhile_append_of_pos (ws_isWs h)

theorem skipWs_head {t s : Bytes} {c : UInt8} (e : skipWs t = c :: s) : isWs c = false := by
  unfold skipWs at e
  induction t with
  | nil => cases e
  | cons a t ih =>
    rw [List.dropWhile_cons] at e
    split at e
    · exact ih e
    · rename_i h; cases e; simpa using h

theorem scanValue_ws {w : Bytes} (h : Ws w) (n : Nat) (s : Bytes) : scanValue n (w ++ s) = scanValue n s := by
  cases n with
  | zero => rfl
  | succ n => rw [scanValue, scanValue, skipWs_app h]

theorem scanMembers_ws {w : Bytes} (h : Ws w) (n : Nat) (s : Bytes) : scanMembers n (w ++ s) = scanMembers n s := by
  cases n with
  | zero => rfl
  | succ n => rw [scanMembers, scanMembers, skipWs_app h]

theorem scanElems_ws {w : Bytes} (h : Ws w) (n : Nat) (s : Bytes) : scanElems n (w ++ s) = scanElems n s := by
  cases n with
  | zero => rfl
  | succ n => rw [scanElems, scanElems, scanValue_ws h]

theorem ends_ws {w r : Bytes} (h : Ws w) (hr : Ends r) : Ends (w ++ r) := by
  cases w with
  | nil => exact hr
  | cons c w =>
    refine .inr ⟨c, w ++ r, rfl, ?_⟩
    rcases h c (by simp) with rfl | rfl | rfl | rfl <;> simp

/-- Starts with a character that is neither white space nor a closing bracket. -/
def Begins (t : Bytes) : Prop := ∃ c s, t = c :: s ∧ isWs c = false ∧ c ≠ 93 ∧ c ≠ 125

/-- What the scanner does with each kind of text. -/
def Scanned : Piece → Bytes → Prop
  | .value d, t => Begins t ∧ ∀ n r, Ends r → 2 * t.length + 1 ≤ n → ∃ v, v.den = d ∧ scanValue n (t ++ r) = some (v, r)
  | .elems ds, t => (∀ x, ∃ c s, skipWs (t ++ x) = c :: s ∧ c ≠ 93) ∧
      ∀ n r, 2 * t.length + 2 ≤ n → ∃ vs, denElems vs = ds ∧ scanElems n (t ++ 93 :: r) = some (vs, r)
  | .members ms, t => (∀ x, ∃ s, skipWs (t ++ x) = 34 :: s) ∧
      ∀ n r, 2 * t.length + 2 ≤ n → ∃ kvs, denMembers kvs = ms ∧ scanMembers n (t ++ 125 :: r) = some (kvs, r)

theorem Begins.skip {t : Bytes} (h : Begins t) (x : Bytes) : ∃ c s, skipWs (t ++ x) = c :: s ∧ c ≠ 93 ∧ c ≠ 125 := by
  obtain ⟨c, s, rfl, h1, h2, h3⟩ := h
  exact ⟨c, s ++ x, skipWs_cons _ _ h1, h2, h3⟩

theorem ends_comma (s : Bytes) : Ends (44 :: s) := .inr ⟨_, _, rfl, by simp⟩

theorem text_scanned {p : Piece} {t : Bytes} (h : Text p t) : Scanned p t := by
  induction h with
  | null =>
    refine ⟨⟨110, ascii "ull", rfl, by decide, by decide, by decide⟩, fun n r _ hn => ⟨.null, by rw [JVal.den], ?_⟩⟩
    obtain ⟨n, rfl⟩ : ∃ k, n = k + 1 := ⟨n - 1, by omega⟩
    show scanValue (n + 1) (110 :: (ascii "ull" ++ r)) = _
    rw [scanValue, skipWs_cons _ _ (by decide)]
    simp only [expect_append, Option.map_some]
  | true =>
    refine ⟨⟨116, ascii "rue", rfl, by decide, by decide, by decide⟩, fun n r _ hn => ⟨.bool true, by rw [JVal.den], ?_⟩⟩
    obtain ⟨n, rfl⟩ : ∃ k, n = k + 1 := ⟨n - 1, by omega⟩
    show scanValue (n + 1) (116 :: (ascii "rue" ++ r)) = _
    rw [scanValue, skipWs_cons _ _ (by decide)]
    simp only [expect_append, Option.map_some]
  | false =>
    refine ⟨⟨102, ascii "alse", rfl, by decide, by decide, by decide⟩, fun n r _ hn => ⟨.bool false, by rw [JVal.den], ?_⟩⟩
    obtain ⟨n, rfl⟩ : ∃ k, n = k + 1 := ⟨n - 1, by omega⟩
    show scanValue (n + 1) (102 :: (ascii "alse" ++ r)) = _
    rw [scanValue, skipWs_cons _ _ (by decide)]
    simp only [expect_append, Option.map_some]
  | @num l hl =>
    obtain ⟨-, c, t, e, hc⟩ := numText_scan hl (r := []) (.inl rfl)
    obtain ⟨h1, h2, h3, h4, h5, h6, h7, h8, h9⟩ := numStart c hc
    refine ⟨⟨c, t, e, h1, h8, h9⟩, fun n r hr hn => ⟨.num l, by rw [JVal.den], ?_⟩⟩
    obtain ⟨n, rfl⟩ : ∃ k, n = k + 1 := ⟨n - 1, by omega⟩
    have hs := (numText_scan hl hr).1
    rw [e, List.cons_append] at hs ⊢
    rw [scanValue, skipWs_cons _ _ h1]
    split <;> rename_i e' <;> first | (simp only [List.cons.injEq] at e'; exact absurd e'.1 (by assumption)) | skip
    rw [hs]; rfl
  | @str s t hs =>
    refine ⟨⟨34, t ++ [34], rfl, by decide, by decide, by decide⟩, fun n r _ hn => ⟨.str t, by rw [JVal.den, (strText_scan hs []).2], ?_⟩⟩
    obtain ⟨n, rfl⟩ : ∃ k, n = k + 1 := ⟨n - 1, by omega⟩
    rw [List.cons_append, List.append_assoc, scanValue, skipWs_cons _ _ (by decide)]
    simp only [List.singleton_append, (strText_scan hs r).1, Option.map_some]
  | @noElems w hw =>
    refine ⟨⟨91, w ++ [93], rfl, by decide, by decide, by decide⟩, fun n r _ hn => ⟨.arr [], by rw [JVal.den, denElems], ?_⟩⟩
    obtain ⟨n, rfl⟩ : ∃ k, n = k + 1 := ⟨n - 1, by omega⟩
    rw [List.cons_append, List.append_assoc, scanValue, skipWs_cons _ _ (by decide)]
    simp only [skipWs_app hw, List.singleton_append]
    rw [skipWs_cons _ _ (by decide)]
    rfl
  | @arr ds t _ ih =>
    obtain ⟨h1, h2⟩ := ih
    refine ⟨⟨91, t ++ [93], rfl, by decide, by decide, by decide⟩, fun n r _ hn => ?_⟩
    obtain ⟨n, rfl⟩ : ∃ k, n = k + 1 := ⟨n - 1, by omega⟩
    simp only [List.length_cons, List.length_append, List.length_nil] at hn
    obtain ⟨vs, e1, e2⟩ := h2 n r (by omega)
    refine ⟨.arr vs, by rw [JVal.den, e1], ?_⟩
    rw [List.cons_append, List.append_assoc, scanValue, skipWs_cons _ _ (by decide)]
    obtain ⟨c, s, e, hc⟩ := h1 (93 :: r)
    simp only [List.singleton_append]
    have hws : scanElems n (c :: s) = scanElems n (t ++ 93 :: r) := by
      cases n with
      | zero => rfl
      | succ n =>
        rw [scanElems, scanElems]
        cases n with
        | zero => rfl
        | succ n =>
          have hcw : isWs c = false := by
            exact skipWs_head e
          rw [scanValue, scanValue, e, skipWs_cons _ _ hcw]
    split
    · rename_i s' e'
      rw [e] at e'; simp only [List.cons.injEq] at e'; exact absurd e'.1 hc
    · rw [e, hws, e2]; rfl
  | @noMembers w hw =>
    refine ⟨⟨123, w ++ [125], rfl, by decide, by decide, by decide⟩, fun n r _ hn => ⟨.obj [], by rw [JVal.den, denMembers], ?_⟩⟩
    obtain ⟨n, rfl⟩ : ∃ k, n = k + 1 := ⟨n - 1, by omega⟩
    rw [List.cons_append, List.append_assoc, scanValue, skipWs_cons _ _ (by decide)]
    simp only [skipWs_app hw, List.singleton_append]
    rw [skipWs_cons _ _ (by decide)]
    rfl
  | @obj ms t _ ih =>
    obtain ⟨h1, h2⟩ := ih
    refine ⟨⟨123, t ++ [125], rfl, by decide, by decide, by decide⟩, fun n r _ hn => ?_⟩
    obtain ⟨n, rfl⟩ : ∃ k, n = k + 1 := ⟨n - 1, by omega⟩
    simp only [List.length_cons, List.length_append, List.length_nil] at hn
    obtain ⟨vs, e1, e2⟩ := h2 n r (by omega)
    refine ⟨.obj vs, by rw [JVal.den, e1], ?_⟩
    rw [List.cons_append, List.append_assoc, scanValue, skipWs_cons _ _ (by decide)]
    obtain ⟨s, e⟩ := h1 (125 :: r)
    simp only [List.singleton_append]
    have hws : scanMembers n (34 :: s) = scanMembers n (t ++ 125 :: r) := by
      cases n with
      | zero => rfl
      | succ n => rw [scanMembers, scanMembers, e, skipWs_cons _ _ (by decide)]
    rw [e]
    show (scanMembers n (34 :: s)).map _ = _
    rw [hws, e2]; rfl
  | @elem w w' d t hw hw' _ ih =>
    obtain ⟨h1, h2⟩ := ih
    refine ⟨fun x => ?_, fun n r hn => ?_⟩
    · rw [List.append_assoc, skipWs_app hw, List.append_assoc]
      obtain ⟨c, s, e, hc, -⟩ := h1.skip (w' ++ x)
      exact ⟨c, s, e, hc⟩
    · obtain ⟨n, rfl⟩ : ∃ k, n = k + 1 := ⟨n - 1, by omega⟩
      simp only [List.length_append] at hn
      obtain ⟨v, e1, e2⟩ := h2 n (w' ++ 93 :: r) (ends_ws hw' (.inr ⟨93, r, rfl, by simp⟩)) (by omega)
      refine ⟨[v], by rw [denElems, denElems, e1], ?_⟩
      rw [List.append_assoc, scanElems_ws hw, List.append_assoc, scanElems, e2]
      simp only [Option.bind_some]
      rw [skipWs_app hw', skipWs_cons _ _ (by decide)]
      rfl
  | @elemMore w w' d t ds u hw hw' _ _ ih ih' =>
    obtain ⟨h1, h2⟩ := ih
    obtain ⟨-, h4⟩ := ih'
    refine ⟨fun x => ?_, fun n r hn => ?_⟩
    · rw [List.append_assoc, skipWs_app hw, List.append_assoc]
      obtain ⟨c, s, e, hc, -⟩ := h1.skip (w' ++ 44 :: u ++ x)
      exact ⟨c, s, e, hc⟩
    · obtain ⟨n, rfl⟩ : ∃ k, n = k + 1 := ⟨n - 1, by omega⟩
      simp only [List.length_append, List.length_cons] at hn
      obtain ⟨v, e1, e2⟩ := h2 n (w' ++ (44 :: (u ++ 93 :: r))) (ends_ws hw' (ends_comma _)) (by omega)
      obtain ⟨vs, e3, e4⟩ := h4 n r (by omega)
      refine ⟨v :: vs, by rw [denElems, e1, e3], ?_⟩
      have : (w ++ (t ++ (w' ++ 44 :: u))) ++ 93 :: r = w ++ (t ++ (w' ++ (44 :: (u ++ 93 :: r)))) := by simp [List.append_assoc]
      rw [this, scanElems_ws hw, scanElems, e2]
      simp only [Option.bind_some]
      rw [skipWs_app hw', skipWs_cons _ _ (by decide)]
      simp only
      rw [e4]; rfl
  | @member w w1 w2 w3 k kt d t hw hw1 hw2 hw3 hk _ ih =>
    obtain ⟨-, h2⟩ := ih
    refine ⟨fun x => ⟨_, by rw [List.append_assoc, skipWs_app hw, List.cons_append, skipWs_cons _ _ (by decide)]⟩, fun n r hn => ?_⟩
    obtain ⟨n, rfl⟩ : ∃ k, n = k + 1 := ⟨n - 1, by omega⟩
    simp only [List.length_append, List.length_cons] at hn
    obtain ⟨v, e1, e2⟩ := h2 n (w3 ++ 125 :: r) (ends_ws hw3 (.inr ⟨125, r, rfl, by simp⟩)) (by omega)
    refine ⟨[(kt, v)], by rw [denMembers, denMembers, e1, (strText_scan hk []).2], ?_⟩
    have : (w ++ 34 :: (kt ++ 34 :: (w1 ++ 58 :: (w2 ++ (t ++ w3))))) ++ 125 :: r =
        w ++ (34 :: (kt ++ 34 :: (w1 ++ (58 :: (w2 ++ (t ++ (w3 ++ 125 :: r))))))) := by simp [List.append_assoc]
    rw [this, scanMembers_ws hw, scanMembers, skipWs_cons _ _ (by decide)]
    simp only
    rw [(strText_scan hk _).1]
    simp only [Option.bind_some]
    rw [skipWs_app hw1, skipWs_cons _ _ (by decide)]
    simp only
    rw [scanValue_ws hw2, e2]
    simp only [Option.bind_some]
    rw [skipWs_app hw3, skipWs_cons _ _ (by decide)]
    rfl
  | @memberMore w w1 w2 w3 k kt d t ms u hw hw1 hw2 hw3 hk _ _ ih ih' =>
    obtain ⟨-, h2⟩ := ih
    obtain ⟨-, h4⟩ := ih'
    refine ⟨fun x => ⟨_, by rw [List.append_assoc, skipWs_app hw, List.cons_append, skipWs_cons _ _ (by decide)]⟩, fun n r hn => ?_⟩
    obtain ⟨n, rfl⟩ : ∃ k, n = k + 1 := ⟨n - 1, by omega⟩
    simp only [List.length_append, List.length_cons] at hn
    obtain ⟨v, e1, e2⟩ := h2 n (w3 ++ (44 :: (u ++ 125 :: r))) (ends_ws hw3 (ends_comma _)) (by omega)
    obtain ⟨vs, e3, e4⟩ := h4 n r (by omega)
    refine ⟨(kt, v) :: vs, by rw [denMembers, e1, e3, (strText_scan hk []).2], ?_⟩
    have : (w ++ 34 :: (kt ++ 34 :: (w1 ++ 58 :: (w2 ++ (t ++ (w3 ++ 44 :: u)))))) ++ 125 :: r =
        w ++ (34 :: (kt ++ 34 :: (w1 ++ (58 :: (w2 ++ (t ++ (w3 ++ (44 :: (u ++ 125 :: r))))))))) := by simp [List.append_assoc]
    rw [this, scanMembers_ws hw, scanMembers, skipWs_cons _ _ (by decide)]
    simp only
    rw [(strText_scan hk _).1]
    simp only [Option.bind_some]
    rw [skipWs_app hw1, skipWs_cons _ _ (by decide)]
    simp only
    rw [scanValue_ws hw2, e2]
    simp only [Option.bind_some]
    rw [skipWs_app hw3, skipWs_cons _ _ (by decide)]
    simp only
    rw [e4]; rfl

/-- The scanner reads every way to write a document. -/
theorem scan_writes {d : Doc} {t : Bytes} (h : Writes d t) : ∃ v, scan t = some v ∧ v.den = d := by
  obtain ⟨w, v, w', hw, hw', ht, rfl⟩ := h
  obtain ⟨-, h2⟩ := text_scanned ht
  obtain ⟨x, e1, e2⟩ := h2 (2 * (w ++ (v ++ w')).length + 2) w' (by simpa using ends_ws hw' (.inl rfl)) (by simp; omega)
  refine ⟨x, ?_, e1⟩
  have : skipWs w' = [] := by rw [← List.append_nil w', skipWs_app hw']; rfl
  rw [scan, scanValue_ws hw, e2]
  simp [this]

/-! ### What the scanner accepts -/

theorem digit_of {c : UInt8} (h : isDec c = true) : Digit c := by
  have all : ∀ k : Fin 10, (48 + UInt8.ofNat k.val) ∈ ascii "0123456789" := by decide
  simp only [isDec, Bool.and_eq_true, decide_eq_true_eq, UInt8.le_iff_toNat_le] at h
  have h48 : (48 : UInt8).toNat = 48 := rfl
  have h57 : (57 : UInt8).toNat = 57 := rfl
  have e : c = 48 + UInt8.ofNat (c.toNat - 48) := by
    apply UInt8.toNat_inj.1
    rw [UInt8.toNat_add, UInt8.toNat_ofNat']
    omega
  rw [Digit, e]
  exact all ⟨c.toNat - 48, by omega⟩

theorem mem_takeWhile {α : Type} {p : α → Bool} {l : List α} {c : α} (h : c ∈ l.takeWhile p) : p c = true := by
  induction l with
  | nil => cases h
  | cons a l ih =>
    rw [List.takeWhile_cons] at h
    split at h
    · rcases List.mem_cons.1 h with rfl | h
      · assumption
      · exact ih h
    · cases h

theorem scanDigits_text {s d r : Bytes} (h : scanDigits s = some (d, r)) : s = d ++ r ∧ Digits d := by
  rw [scanDigits, List.span_eq_takeWhile_dropWhile] at h
  split at h
  · cases h
  · rename_i d' r' hne e
    cases h
    simp only [Prod.mk.injEq] at e
    obtain ⟨rfl, rfl⟩ := e
    refine ⟨(List.takeWhile_append_dropWhile).symm, hne, fun c hc => digit_of (mem_takeWhile hc)⟩

theorem scanNum_text {s l r : Bytes} (h : scanNum s = some (l, r)) : s = l ++ r ∧ NumText l := by
  have hint : ∀ {s d r : Bytes}, scanInt s = some (d, r) → s = d ++ r ∧ (d = ascii "0" ∨ Digits d ∧ d.head? ≠ some 48) := by
    intro s d r h
    by_cases h0 : ∃ u, s = 48 :: u
    · obtain ⟨u, rfl⟩ := h0
      rw [scanInt] at h
      cases h
      exact ⟨rfl, .inl rfl⟩
    · rw [scanInt_other (fun u e => h0 ⟨u, e⟩)] at h
      obtain ⟨rfl, hd⟩ := scanDigits_text h
      refine ⟨rfl, .inr ⟨hd, fun e => ?_⟩⟩
      cases d with
      | nil => cases e
      | cons c d => simp only [List.head?_cons, Option.some.injEq] at e; exact h0 ⟨d ++ r, by rw [e]; rfl⟩
  have hfrac : ∀ {s d r : Bytes}, scanFrac s = some (d, r) → s = d ++ r ∧ (d = [] ∨ ∃ x, Digits x ∧ d = ascii "." ++ x) := by
    intro s d r h
    by_cases h0 : ∃ u, s = 46 :: u
    · obtain ⟨u, rfl⟩ := h0
      rw [scanFrac] at h
      obtain ⟨x, e1, e2⟩ := map_pair_some (f := fun d => 46 :: d) h
      obtain ⟨rfl, hd⟩ := scanDigits_text e1
      exact ⟨by rw [← e2]; rfl, .inr ⟨x, hd, e2.symm⟩⟩
    · rw [scanFrac_other (fun u e => h0 ⟨u, e⟩)] at h
      cases h
      exact ⟨rfl, .inl rfl⟩
  have hexp : ∀ {s x r : Bytes}, scanExp s = some (x, r) → s = x ++ r ∧ (x = [] ∨ ∃ e s d, (e = ascii "e" ∨ e = ascii "E") ∧
      (s = [] ∨ s = ascii "+" ∨ s = ascii "-") ∧ Digits d ∧ x = e ++ s ++ d) := by
    intro s x r h
    cases s with
    | nil => rw [scanExp] at h; cases h; exact ⟨rfl, .inl rfl⟩
    | cons c s =>
      rw [scanExp.eq_def] at h
      dsimp only at h
      split at h
      · rename_i hc
        have hc' : [c] = ascii "e" ∨ [c] = ascii "E" := by
          simp only [Bool.or_eq_true, decide_eq_true_eq] at hc
          rcases hc with rfl | rfl
          · exact .inl rfl
          · exact .inr rfl
        cases s with
        | nil => cases h
        | cons g s =>
          dsimp only at h
          split at h
          · rename_i hg
            have hg' : [g] = ascii "+" ∨ [g] = ascii "-" := by
              simp only [Bool.or_eq_true, decide_eq_true_eq] at hg
              rcases hg with rfl | rfl
              · exact .inl rfl
              · exact .inr rfl
            obtain ⟨d, e1, e2⟩ := map_pair_some (f := fun d => c :: g :: d) h
            obtain ⟨rfl, hd⟩ := scanDigits_text e1
            exact ⟨by rw [← e2]; rfl, .inr ⟨[c], [g], d, hc', .inr hg', hd, e2.symm⟩⟩
          · obtain ⟨d, e1, e2⟩ := map_pair_some (f := fun d => c :: d) h
            obtain ⟨e3, hd⟩ := scanDigits_text e1
            exact ⟨by rw [← e2, e3]; rfl, .inr ⟨[c], [], d, hc', .inl rfl, hd, e2.symm⟩⟩
      · cases h; exact ⟨rfl, .inl rfl⟩
  have hbody : ∀ {g s l r : Bytes}, g = [] ∨ g = ascii "-" → scanBody g s = some (l, r) → g ++ s = l ++ r ∧ NumText l := by
    intro g s l r hg h
    rw [scanBody] at h
    cases e1 : scanInt s with
    | none => rw [e1] at h; cases h
    | some p1 =>
      obtain ⟨i, s1⟩ := p1
      rw [e1] at h
      simp only [Option.bind_some] at h
      cases e2 : scanFrac s1 with
      | none => rw [e2] at h; cases h
      | some p2 =>
        obtain ⟨f, s2⟩ := p2
        rw [e2] at h
        simp only [Option.bind_some] at h
        obtain ⟨x, e3, e4⟩ := map_pair_some (f := fun x => g ++ i ++ f ++ x) h
        obtain ⟨a1, a2⟩ := hint e1
        obtain ⟨b1, b2⟩ := hfrac e2
        obtain ⟨c1, c2⟩ := hexp e3
        subst a1 b1 c1 e4
        exact ⟨by simp [List.append_assoc], g, i, f, x, rfl, hg, a2, b2, c2⟩
  by_cases hm : ∃ u, s = 45 :: u
  · obtain ⟨u, rfl⟩ := hm
    rw [scanNum_neg] at h
    exact hbody (.inr rfl) h
  · rw [scanNum_other (fun u e => hm ⟨u, e⟩)] at h
    exact hbody (.inl rfl) h

theorem expect_text {p s r : Bytes} (h : expect p s = some r) : s = p ++ r := by
  induction p generalizing s with
  | nil => rw [expect] at h; cases h; rfl
  | cons c p ih =>
    cases s with
    | nil => rw [expect] at h; cases h
    | cons d s =>
      rw [expect] at h
      split at h
      · rename_i e; subst e; rw [ih h]; rfl
      · cases h

theorem skipWs_text (s : Bytes) : ∃ w, Ws w ∧ s = w ++ skipWs s := by
  refine ⟨s.takeWhile isWs, fun c hc => ?_, (List.takeWhile_append_dropWhile).symm⟩
  have := mem_takeWhile hc
  simp only [isWs, Bool.or_eq_true, decide_eq_true_eq] at this
  rcases this with ((h | h) | h) | h <;> simp [h]

theorem skipWs_text_cons {s t : Bytes} {c : UInt8} (h : skipWs s = c :: t) : ∃ w, Ws w ∧ s = w ++ c :: t := by
  obtain ⟨w, hw, e⟩ := skipWs_text s
  exact ⟨w, hw, by rw [← h]; exact e⟩

theorem ws_append {w w' : Bytes} (h : Ws w) (h' : Ws w') : Ws (w ++ w') := by
  intro c hc
  rcases List.mem_append.1 hc with hc | hc
  · exact h c hc
  · exact h' c hc

theorem text_members_ws {ms : List (Bytes × Doc)} {w t : Bytes} (hw : Ws w) (h : Text (.members ms) t) : Text (.members ms) (w ++ t) := by
  cases h with
  | member h1 h2 h3 h4 h5 h6 => rw [← List.append_assoc]; exact .member (ws_append hw h1) h2 h3 h4 h5 h6
  | memberMore h1 h2 h3 h4 h5 h6 h7 => rw [← List.append_assoc]; exact .memberMore (ws_append hw h1) h2 h3 h4 h5 h6 h7

theorem text_elems_ws {ds : List Doc} {w t : Bytes} (hw : Ws w) (h : Text (.elems ds) t) : Text (.elems ds) (w ++ t) := by
  cases h with
  | elem h1 h2 h3 => rw [← List.append_assoc]; exact .elem (ws_append hw h1) h2 h3
  | elemMore h1 h2 h3 h4 => rw [← List.append_assoc]; exact .elemMore (ws_append hw h1) h2 h3 h4

theorem map_some_pair {α β γ : Type} {o : Option (α × γ)} {f : α → β} {a : β} {b : γ} (h : (o.map fun (x, y) => (f x, y)) = some (a, b)) :
    ∃ x, o = some (x, b) ∧ f x = a := by
  cases o with
  | none => simp at h
  | some p =>
    obtain ⟨x, y⟩ := p
    simp only [Option.map_some, Option.some.injEq, Prod.mk.injEq] at h
    exact ⟨x, by rw [h.2], h.1⟩

/-- What the scanner accepts is a text of the value it returns. -/
theorem scan_text (n : Nat) :
    (∀ s v r, scanValue n s = some (v, r) → ∃ w t, Ws w ∧ s = w ++ (t ++ r) ∧ Text (.value v.den) t) ∧
    (∀ s vs r, scanElems n s = some (vs, r) → ∃ t, s = t ++ 93 :: r ∧ Text (.elems (denElems vs)) t) ∧
    (∀ s ms r, scanMembers n s = some (ms, r) → ∃ t, s = t ++ 125 :: r ∧ Text (.members (denMembers ms)) t) := by
  induction n with
  | zero =>
    refine ⟨?_, ?_, ?_⟩
    · intro s v r h; rw [scanValue] at h; cases h
    · intro s v r h; rw [scanElems] at h; cases h
    · intro s v r h; rw [scanMembers] at h; cases h
  | succ n ih =>
    obtain ⟨ih1, ih2, ih3⟩ := ih
    refine ⟨?_, ?_, ?_⟩
    · intro s v r h
      rw [scanValue] at h
      split at h
      · rename_i s1 e1
        obtain ⟨w, hw, rfl⟩ := skipWs_text_cons e1
        refine ⟨w, ?_⟩
        split at h
        · rename_i s2 e2
          obtain ⟨w2, hw2, rfl⟩ := skipWs_text_cons e2
          cases h
          refine ⟨123 :: (w2 ++ [125]), hw, by simp, ?_⟩
          rw [JVal.den, denMembers]; exact .noMembers hw2
        · obtain ⟨w2, hw2, e2⟩ := skipWs_text s1
          obtain ⟨m, h1, rfl⟩ := map_some_pair (f := JVal.obj) h
          obtain ⟨t, e3, ht⟩ := ih3 _ _ _ h1
          refine ⟨123 :: ((w2 ++ t) ++ [125]), hw, by rw [e2, e3]; simp, ?_⟩
          rw [JVal.den]; exact .obj (text_members_ws hw2 ht)
      · rename_i s1 e1
        obtain ⟨w, hw, rfl⟩ := skipWs_text_cons e1
        refine ⟨w, ?_⟩
        split at h
        · rename_i s2 e2
          obtain ⟨w2, hw2, rfl⟩ := skipWs_text_cons e2
          cases h
          refine ⟨91 :: (w2 ++ [93]), hw, by simp, ?_⟩
          rw [JVal.den, denElems]; exact .noElems hw2
        · obtain ⟨w2, hw2, e2⟩ := skipWs_text s1
          obtain ⟨m, h1, rfl⟩ := map_some_pair (f := JVal.arr) h
          obtain ⟨t, e3, ht⟩ := ih2 _ _ _ h1
          refine ⟨91 :: ((w2 ++ t) ++ [93]), hw, by rw [e2, e3]; simp, ?_⟩
          rw [JVal.den]; exact .arr (text_elems_ws hw2 ht)
      · rename_i s1 e1
        obtain ⟨w, hw, rfl⟩ := skipWs_text_cons e1
        obtain ⟨t, h1, rfl⟩ := map_some_pair (f := JVal.str) h
        obtain ⟨rfl, ht⟩ := scanStr_text _ (Nat.le_refl _) h1
        refine ⟨w, 34 :: (t ++ [34]), hw, by simp, ?_⟩
        rw [JVal.den]; exact .str ht
      · rename_i s1 e1
        obtain ⟨w, hw, rfl⟩ := skipWs_text_cons e1
        cases h1 : expect (ascii "rue") s1 with
        | none => rw [h1] at h; cases h
        | some r' =>
          rw [h1] at h; cases h
          refine ⟨w, ascii "true", hw, by rw [expect_text h1]; rfl, ?_⟩
          rw [JVal.den]; exact .true
      · rename_i s1 e1
        obtain ⟨w, hw, rfl⟩ := skipWs_text_cons e1
        cases h1 : expect (ascii "alse") s1 with
        | none => rw [h1] at h; cases h
        | some r' =>
          rw [h1] at h; cases h
          refine ⟨w, ascii "false", hw, by rw [expect_text h1]; rfl, ?_⟩
          rw [JVal.den]; exact .false
      · rename_i s1 e1
        obtain ⟨w, hw, rfl⟩ := skipWs_text_cons e1
        cases h1 : expect (ascii "ull") s1 with
        | none => rw [h1] at h; cases h
        | some r' =>
          rw [h1] at h; cases h
          refine ⟨w, ascii "null", hw, by rw [expect_text h1]; rfl, ?_⟩
          rw [JVal.den]; exact .null
      · obtain ⟨w, hw, e⟩ := skipWs_text s
        obtain ⟨l, h1, rfl⟩ := map_some_pair (f := JVal.num) h
        obtain ⟨e2, hl⟩ := scanNum_text h1
        refine ⟨w, l, hw, by rw [← e2]; exact e, ?_⟩
        rw [JVal.den]; exact .num hl
    · intro s vs r h
      rw [scanElems] at h
      cases h1 : scanValue n s with
      | none => rw [h1] at h; cases h
      | some p =>
        obtain ⟨v, s1⟩ := p
        rw [h1] at h
        simp only [Option.bind_some] at h
        obtain ⟨w, t, hw, rfl, ht⟩ := ih1 _ _ _ h1
        split at h
        · rename_i s2 e2
          obtain ⟨w2, hw2, rfl⟩ := skipWs_text_cons e2
          obtain ⟨vs', h2, rfl⟩ := map_some_pair (f := fun l => v :: l) h
          obtain ⟨u, rfl, hu⟩ := ih2 _ _ _ h2
          refine ⟨w ++ (t ++ (w2 ++ 44 :: u)), by simp [List.append_assoc], ?_⟩
          rw [denElems]; exact .elemMore hw hw2 ht hu
        · rename_i s2 e2
          obtain ⟨w2, hw2, rfl⟩ := skipWs_text_cons e2
          cases h
          refine ⟨w ++ (t ++ w2), by simp [List.append_assoc], ?_⟩
          rw [denElems, denElems]; exact .elem hw hw2 ht
        · cases h
    · intro s ms r h
      rw [scanMembers] at h
      split at h
      · rename_i s1 e1
        obtain ⟨w, hw, rfl⟩ := skipWs_text_cons e1
        cases h1 : scanStr s1 with
        | none => rw [h1] at h; cases h
        | some p =>
          obtain ⟨k, s2⟩ := p
          rw [h1] at h
          simp only [Option.bind_some] at h
          obtain ⟨rfl, hk⟩ := scanStr_text _ (Nat.le_refl _) h1
          split at h
          · rename_i s3 e3
            obtain ⟨w1, hw1, rfl⟩ := skipWs_text_cons e3
            cases h2 : scanValue n s3 with
            | none => rw [h2] at h; cases h
            | some p =>
              obtain ⟨v, s4⟩ := p
              rw [h2] at h
              simp only [Option.bind_some] at h
              obtain ⟨w2, t, hw2, rfl, ht⟩ := ih1 _ _ _ h2
              split at h
              · rename_i s5 e5
                obtain ⟨w3, hw3, rfl⟩ := skipWs_text_cons e5
                obtain ⟨ms', h3, rfl⟩ := map_some_pair (f := fun l => (k, v) :: l) h
                obtain ⟨u, rfl, hu⟩ := ih3 _ _ _ h3
                refine ⟨w ++ 34 :: (k ++ 34 :: (w1 ++ 58 :: (w2 ++ (t ++ (w3 ++ 44 :: u))))), by simp [List.append_assoc], ?_⟩
                rw [denMembers]; exact .memberMore hw hw1 hw2 hw3 hk ht hu
              · rename_i s5 e5
                obtain ⟨w3, hw3, rfl⟩ := skipWs_text_cons e5
                cases h
                refine ⟨w ++ 34 :: (k ++ 34 :: (w1 ++ 58 :: (w2 ++ (t ++ w3)))), by simp [List.append_assoc], ?_⟩
                rw [denMembers, denMembers]; exact .member hw hw1 hw2 hw3 hk ht
              · cases h
          · cases h
      · cases h

/-- The scanner accepts exactly the JSON texts. -/
theorem scan_iff (t : Bytes) (d : Doc) : Writes d t ↔ ∃ v, scan t = some v ∧ v.den = d := by
  refine ⟨scan_writes, ?_⟩
  rintro ⟨v, h, rfl⟩
  rw [scan] at h
  split at h
  · rename_i v' r e
    split at h
    · rename_i hr
      cases h
      obtain ⟨w, u, hw, rfl, hu⟩ := (scan_text _).1 _ _ _ e
      obtain ⟨w', hw', e'⟩ := skipWs_text r
      rw [hr, List.append_nil] at e'
      exact ⟨w, u, r, hw, by rw [e']; exact hw', hu, rfl⟩
    · cases h
  · cases h

end Verif

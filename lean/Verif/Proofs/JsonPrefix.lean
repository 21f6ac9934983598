import Verif.Proofs.JsonTypes
/-
A proper prefix of a JSON object is not a JSON text: what the scanner accepts it accepts with any continuation, unless it ended in a number at
the end of the input.
-/
namespace Verif

theorem skipWs_append {s t : Bytes} {c : UInt8} {r : Bytes} (h : skipWs s = c :: r) : skipWs (s ++ t) = c :: (r ++ t) := by
  induction s with
  | nil => simp [skipWs] at h
  | cons a s ih =>
    simp only [skipWs, List.cons_append, List.dropWhile_cons] at h ⊢
    by_cases ha : isWs a = true
    · simp only [ha, if_true] at h ⊢
      exact ih h
    · simp only [ha] at h ⊢
      simpa using h

theorem scanStr_esc (c : UInt8) (s : Bytes) : scanStr (92 :: c :: s) =
    if c = 117 then
      match s with
      | a :: b :: d :: e :: s' =>
        if isHex a && isHex b && isHex d && isHex e then
          (scanStr s').map fun (t, r) => (92 :: c :: a :: b :: d :: e :: t, r)
        else none
      | _ => none
    else if c = 98 || c = 102 || c = 110 || c = 114 || c = 116 || c = 92 || c = 47 || c = 34 then
      (scanStr s).map fun (t, r) => (92 :: c :: t, r)
    else none := by
  rw [scanStr.eq_def]; rfl

theorem scanStr_char (c : UInt8) (s : Bytes) (h1 : c ≠ 34) (h2 : c ≠ 92) :
    scanStr (c :: s) = if c < 32 || c = 92 then none else (scanStr s).map fun (t, r) => (c :: t, r) := by
  rw [scanStr.eq_def]
  split
  · rename_i e; cases e
  · rename_i e; simp only [List.cons.injEq] at e; exact absurd e.1 h1
  · rename_i e; simp only [List.cons.injEq] at e; exact absurd e.1 h2
  · rename_i e; cases e; rfl

theorem map_pair_some {α β : Type} {o : Option (α × β)} {f : α → α} {a : α} {b : β} (h : (o.map fun (x, y) => (f x, y)) = some (a, b)) :
    ∃ x, o = some (x, b) ∧ f x = a := by
  cases o with
  | none => simp at h
  | some p =>
    obtain ⟨x, y⟩ := p
    simp only [Option.map_some, Option.some.injEq, Prod.mk.injEq] at h
    exact ⟨x, by rw [h.2], h.1⟩

theorem scanStr_append_aux (n : Nat) : ∀ {s a r t : Bytes}, s.length ≤ n → scanStr s = some (a, r) → scanStr (s ++ t) = some (a, r ++ t) := by
  induction n with
  | zero =>
    intro s a r t hs h
    rw [List.length_eq_zero_iff.1 (Nat.le_zero.1 hs)] at h
    simp [scanStr] at h
  | succ n ih =>
    intro s a r t hs h
    match s, hs, h with
    | [], _, h => simp [scanStr] at h
    | c :: s, hs, h =>
      simp only [List.length_cons] at hs
      by_cases h34 : c = 34
      · subst h34
        rw [scanStr] at h
        simp only [Option.some.injEq, Prod.mk.injEq] at h
        obtain ⟨rfl, rfl⟩ := h
        rw [List.cons_append, scanStr]
      · by_cases h92 : c = 92
        · subst h92
          match s, hs, h with
          | [], _, h => simp [scanStr] at h
          | c :: s, hs, h =>
            simp only [List.length_cons] at hs
            rw [List.cons_append, List.cons_append, scanStr_esc]
            rw [scanStr_esc] at h
            by_cases hu : c = 117
            · rw [if_pos hu] at h ⊢
              match s, hs, h with
              | [], _, h => cases h
              | [_], _, h => cases h
              | [_, _], _, h => cases h
              | [_, _, _], _, h => cases h
              | x :: y :: z :: w :: s', hs, h =>
                simp only [List.length_cons] at hs
                simp only [List.cons_append] at h ⊢
                by_cases hx : (isHex x && isHex y && isHex z && isHex w) = true
                · rw [if_pos hx] at h ⊢
                  obtain ⟨q, e1, e2⟩ := map_pair_some (f := fun q => 92 :: c :: x :: y :: z :: w :: q) h
                  rw [ih (by omega) e1]
                  simp only [Option.map_some, e2]
                · rw [if_neg hx] at h; cases h
            · rw [if_neg hu] at h ⊢
              split at h
              · rename_i hc
                rw [if_pos hc]
                obtain ⟨q, e1, e2⟩ := map_pair_some (f := fun q => 92 :: c :: q) h
                rw [ih (by omega) e1]
                simp only [Option.map_some, e2]
              · cases h
        · rw [List.cons_append, scanStr_char _ _ h34 h92]
          rw [scanStr_char _ _ h34 h92] at h
          split at h
          · cases h
          · rename_i hc
            rw [if_neg hc]
            obtain ⟨q, e1, e2⟩ := map_pair_some h
            rw [ih (by omega) e1]
            simp only [Option.map_some, e2]

theorem scanStr_append {s a r t : Bytes} (h : scanStr s = some (a, r)) : scanStr (s ++ t) = some (a, r ++ t) :=
  scanStr_append_aux s.length (Nat.le_refl _) h

theorem expect_extend {p s r t : Bytes} (h : expect p s = some r) : expect p (s ++ t) = some (r ++ t) := by
  induction p generalizing s with
  | nil => simp only [expect, Option.some.injEq] at h ⊢; rw [h]
  | cons a p ih =>
    cases s with
    | nil => simp [expect] at h
    | cons c s =>
      simp only [expect, List.cons_append] at h ⊢
      split at h
      · rename_i hc; rw [if_pos hc]; exact ih h
      · cases h

theorem span_extend {p : UInt8 → Bool} {s t : Bytes} (h : (s.span p).2 ≠ []) : (s ++ t).span p = ((s.span p).1, (s.span p).2 ++ t) := by
  rw [List.span_eq_takeWhile_dropWhile] at h ⊢
  rw [List.span_eq_takeWhile_dropWhile]
  simp only at h ⊢
  induction s with
  | nil => simp at h
  | cons a s ih =>
    simp only [List.cons_append, List.takeWhile_cons, List.dropWhile_cons] at h ⊢
    by_cases ha : p a = true
    · simp only [ha, if_true] at h ⊢
      have := ih h
      simp only [Prod.mk.injEq] at this
      rw [this.1, this.2]
    · simp [ha]

theorem scanDigits_extend {s d r t : Bytes} (hr : r ≠ []) (h : scanDigits s = some (d, r)) : scanDigits (s ++ t) = some (d, r ++ t) := by
  unfold scanDigits at h ⊢
  cases hs : s.span isDec with
  | mk a b =>
    rw [hs] at h
    have hb : b = r := by
      cases a with
      | nil => simp at h
      | cons x a => simp at h; exact h.2
    subst hb
    have := span_extend (p := isDec) (s := s) (t := t) (by rw [hs]; exact hr)
    rw [this, hs]
    cases a with
    | nil => simp at h
    | cons x a => simp at h ⊢; exact h

theorem scanInt_other {s : Bytes} (h : ∀ u, s ≠ 48 :: u) : scanInt s = scanDigits s := by
  rw [scanInt.eq_def]
  split
  · rename_i u; exact absurd rfl (h u)
  · rfl

theorem scanInt_extend {s d r t : Bytes} (hr : r ≠ []) (h : scanInt s = some (d, r)) : scanInt (s ++ t) = some (d, r ++ t) := by
  by_cases hs : ∃ u, s = 48 :: u
  · obtain ⟨u, rfl⟩ := hs
    rw [scanInt] at h
    simp only [Option.some.injEq, Prod.mk.injEq] at h
    obtain ⟨rfl, rfl⟩ := h
    rw [List.cons_append, scanInt]
  · have hs' : ∀ u, s ≠ 48 :: u := fun u e => hs ⟨u, e⟩
    rw [scanInt_other hs'] at h
    have hne : s ≠ [] := by rintro rfl; simp [scanDigits, List.span_eq_takeWhile_dropWhile] at h
    rw [scanInt_other, scanDigits_extend hr h]
    intro u e
    cases s with
    | nil => exact hne rfl
    | cons c s => rw [List.cons_append] at e; cases e; exact hs' _ rfl

theorem scanFrac_other {s : Bytes} (h : ∀ u, s ≠ 46 :: u) : scanFrac s = some ([], s) := by
  rw [scanFrac.eq_def]
  split
  · rename_i u; exact absurd rfl (h u)
  · rfl

theorem scanFrac_extend {s d r t : Bytes} (hr : r ≠ []) (h : scanFrac s = some (d, r)) : s ≠ [] ∧ scanFrac (s ++ t) = some (d, r ++ t) := by
  by_cases hs : ∃ u, s = 46 :: u
  · obtain ⟨u, rfl⟩ := hs
    rw [scanFrac] at h
    obtain ⟨q, e1, e2⟩ := map_pair_some h
    refine ⟨by simp, ?_⟩
    rw [List.cons_append, scanFrac, scanDigits_extend hr e1]
    simp only [Option.map_some, e2]
  · have hs' : ∀ u, s ≠ 46 :: u := fun u e => hs ⟨u, e⟩
    rw [scanFrac_other hs'] at h
    simp only [Option.some.injEq, Prod.mk.injEq] at h
    obtain ⟨rfl, rfl⟩ := h
    refine ⟨hr, ?_⟩
    rw [scanFrac_other]
    intro u e
    cases s with
    | nil => exact hr rfl
    | cons c s => rw [List.cons_append] at e; cases e; exact hs' _ rfl

theorem scanExp_extend {s d r t : Bytes} (hr : r ≠ []) (h : scanExp s = some (d, r)) : s ≠ [] ∧ scanExp (s ++ t) = some (d, r ++ t) := by
  cases s with
  | nil => simp only [scanExp, Option.some.injEq, Prod.mk.injEq] at h; exact absurd h.2.symm hr
  | cons c s =>
    refine ⟨by simp, ?_⟩
    rw [List.cons_append]
    simp only [scanExp] at h ⊢
    split at h
    · rename_i hc
      rw [if_pos hc]
      cases s with
      | nil => cases h
      | cons sg s =>
        simp only [List.cons_append] at h ⊢
        split at h
        · rename_i hg
          rw [if_pos hg]
          obtain ⟨q, e1, e2⟩ := map_pair_some (f := fun q => c :: sg :: q) h
          rw [scanDigits_extend hr e1]
          simp only [Option.map_some, e2]
        · rename_i hg
          rw [if_neg hg]
          obtain ⟨q, e1, e2⟩ := map_pair_some h
          have := scanDigits_extend (t := t) hr e1
          rw [List.cons_append] at this
          rw [this]
          simp only [Option.map_some, e2]
    · rename_i hc
      rw [if_neg hc]
      simp only [Option.some.injEq, Prod.mk.injEq] at h
      obtain ⟨rfl, rfl⟩ := h
      rfl

/-- The three parts of a number. -/
def scanBody (sign s : Bytes) : Option (Bytes × Bytes) :=
  (scanInt s).bind fun (i, s) => (scanFrac s).bind fun (f, s) => (scanExp s).map fun (e, s) => (sign ++ i ++ f ++ e, s)

theorem scanNum_neg (s : Bytes) : scanNum (45 :: s) = scanBody [45] s := rfl
theorem scanNum_other {s : Bytes} (h : ∀ u, s ≠ 45 :: u) : scanNum s = scanBody [] s := by
  rw [scanNum]
  · rfl
  · intro u e; exact h u e

theorem scanBody_extend {g s d r t : Bytes} (hr : r ≠ []) (h : scanBody g s = some (d, r)) : s ≠ [] ∧ scanBody g (s ++ t) = some (d, r ++ t) := by
  unfold scanBody at h ⊢
  cases h1 : scanInt s with
  | none => simp [h1] at h
  | some p1 =>
    obtain ⟨i, s1⟩ := p1
    simp only [h1, Option.bind_some] at h
    cases h2 : scanFrac s1 with
    | none => simp [h2] at h
    | some p2 =>
      obtain ⟨f, s2⟩ := p2
      simp only [h2, Option.bind_some] at h
      obtain ⟨q, e1, e2⟩ := map_pair_some h
      obtain ⟨n2, e3⟩ := scanExp_extend (t := t) hr e1
      obtain ⟨n1, e4⟩ := scanFrac_extend (t := t) n2 h2
      have e5 := scanInt_extend (t := t) n1 h1
      refine ⟨by rintro rfl; simp [scanInt_other, scanDigits, List.span_eq_takeWhile_dropWhile] at h1, ?_⟩
      rw [e5]
      simp only [Option.bind_some, e4, e3, Option.map_some, e2]

theorem scanNum_extend {s d r t : Bytes} (hr : r ≠ []) (h : scanNum s = some (d, r)) : scanNum (s ++ t) = some (d, r ++ t) := by
  by_cases hs : ∃ u, s = 45 :: u
  · obtain ⟨u, rfl⟩ := hs
    rw [scanNum_neg] at h
    rw [List.cons_append, scanNum_neg]
    exact (scanBody_extend hr h).2
  · have hs' : ∀ u, s ≠ 45 :: u := fun u e => hs ⟨u, e⟩
    rw [scanNum_other hs'] at h
    obtain ⟨hne, e⟩ := scanBody_extend (t := t) hr h
    rw [scanNum_other, e]
    intro u e
    cases s with
    | nil => exact hne rfl
    | cons c s => rw [List.cons_append] at e; cases e; exact hs' _ rfl

/-- Whether a value ends by itself. -/
def JVal.closed : JVal → Prop
  | .num _ => False
  | _ => True

theorem scan_extend (n : Nat) :
    (∀ (m : Nat) (s : Bytes) (v : JVal) (r t : Bytes), n ≤ m → scanValue n s = some (v, r) → (r ≠ [] ∨ v.closed) → scanValue m (s ++ t) = some (v, r ++ t)) ∧
    (∀ (m : Nat) (s : Bytes) (v : List JVal) (r t : Bytes), n ≤ m → scanElems n s = some (v, r) → scanElems m (s ++ t) = some (v, r ++ t)) ∧
    (∀ (m : Nat) (s : Bytes) (v : List (Bytes × JVal)) (r t : Bytes), n ≤ m → scanMembers n s = some (v, r) → scanMembers m (s ++ t) = some (v, r ++ t)) := by
  induction n with
  | zero => refine ⟨?_, ?_, ?_⟩ <;> intro m s v r t _ h <;> simp [scanValue, scanElems, scanMembers] at h
  | succ n ih =>
    obtain ⟨ih1, ih2, ih3⟩ := ih
    refine ⟨?_, ?_, ?_⟩
    · intro m s v r t hm h hr
      obtain ⟨m, rfl⟩ : ∃ k, m = k + 1 := ⟨m - 1, by omega⟩
      have hm : n ≤ m := by omega
      rw [scanValue] at h
      rw [scanValue]
      cases hw : skipWs s with
      | nil =>
        rw [hw] at h
        simp [scanNum_other, scanBody, scanInt_other, scanDigits, List.span_eq_takeWhile_dropWhile] at h
      | cons c u =>
        rw [skipWs_append hw]
        rw [hw] at h
        split at h
        · rename_i e
          cases e
          simp only
          cases hu : skipWs u with
          | nil =>
            rw [hu] at h
            cases n with
            | zero => simp [scanMembers] at h
            | succ n => simp [scanMembers, skipWs] at h
          | cons d w =>
            rw [skipWs_append hu]
            rw [hu] at h
            split at h
            · rename_i e
              cases e
              simp only [Option.some.injEq, Prod.mk.injEq] at h ⊢
              exact ⟨h.1, by rw [h.2]⟩
            · rename_i h125
              cases hq : scanMembers n (d :: w) with
              | none => rw [hq] at h; simp at h
              | some p =>
                obtain ⟨q, r'⟩ := p
                rw [hq] at h
                simp only [Option.map_some, Option.some.injEq, Prod.mk.injEq] at h
                obtain ⟨rfl, rfl⟩ := h
                have := ih3 m (d :: w) q r' t hm hq
                split
                · rename_i e; cases e; exact absurd rfl (h125 w)
                · rw [← List.cons_append, this]; rfl
        · rename_i e
          cases e
          simp only
          cases hu : skipWs u with
          | nil =>
            rw [hu] at h
            cases n with
            | zero => simp [scanElems] at h
            | succ n =>
              cases n with
              | zero => simp [scanElems, scanValue] at h
              | succ n => simp [scanElems, scanValue, skipWs, scanNum_other, scanBody, scanInt_other, scanDigits, List.span_eq_takeWhile_dropWhile] at h
          | cons d w =>
            rw [skipWs_append hu]
            rw [hu] at h
            split at h
            · rename_i e
              cases e
              simp only [Option.some.injEq, Prod.mk.injEq] at h ⊢
              exact ⟨h.1, by rw [h.2]⟩
            · rename_i h93
              cases hq : scanElems n (d :: w) with
              | none => rw [hq] at h; simp at h
              | some p =>
                obtain ⟨q, r'⟩ := p
                rw [hq] at h
                simp only [Option.map_some, Option.some.injEq, Prod.mk.injEq] at h
                obtain ⟨rfl, rfl⟩ := h
                have := ih2 m (d :: w) q r' t hm hq
                split
                · rename_i e; cases e; exact absurd rfl (h93 w)
                · rw [← List.cons_append, this]; rfl
        · rename_i e
          cases e
          simp only
          cases hq : scanStr u with
          | none => rw [hq] at h; simp at h
          | some p =>
            obtain ⟨q, r'⟩ := p
            rw [hq] at h
            simp only [Option.map_some, Option.some.injEq, Prod.mk.injEq] at h
            obtain ⟨rfl, rfl⟩ := h
            rw [scanStr_append hq]; rfl
        · rename_i e
          cases e
          simp only
          cases hq : expect (ascii "rue") u with
          | none => rw [hq] at h; simp at h
          | some p =>
            rw [hq] at h
            simp only [Option.map_some, Option.some.injEq, Prod.mk.injEq] at h
            obtain ⟨rfl, rfl⟩ := h
            rw [expect_extend hq]; rfl
        · rename_i e
          cases e
          simp only
          cases hq : expect (ascii "alse") u with
          | none => rw [hq] at h; simp at h
          | some p =>
            rw [hq] at h
            simp only [Option.map_some, Option.some.injEq, Prod.mk.injEq] at h
            obtain ⟨rfl, rfl⟩ := h
            rw [expect_extend hq]; rfl
        · rename_i e
          cases e
          simp only
          cases hq : expect (ascii "ull") u with
          | none => rw [hq] at h; simp at h
          | some p =>
            rw [hq] at h
            simp only [Option.map_some, Option.some.injEq, Prod.mk.injEq] at h
            obtain ⟨rfl, rfl⟩ := h
            rw [expect_extend hq]; rfl
        · rename_i h1 h2 h3 h4 h5 h6
          cases hq : scanNum (c :: u) with
          | none => rw [hq] at h; simp at h
          | some p =>
            obtain ⟨q, r'⟩ := p
            rw [hq] at h
            simp only [Option.map_some, Option.some.injEq, Prod.mk.injEq] at h
            obtain ⟨rfl, rfl⟩ := h
            have hr : r' ≠ [] := hr.elim id (fun h => h.elim)
            have := scanNum_extend (t := t) hr hq
            split <;> rename_i e
            · cases e; exact absurd rfl (h1 u)
            · cases e; exact absurd rfl (h2 u)
            · cases e; exact absurd rfl (h3 u)
            · cases e; exact absurd rfl (h4 u)
            · cases e; exact absurd rfl (h5 u)
            · cases e; exact absurd rfl (h6 u)
            · rw [← List.cons_append, this]; rfl
    · intro m s v r t hm h
      obtain ⟨m, rfl⟩ : ∃ k, m = k + 1 := ⟨m - 1, by omega⟩
      have hm : n ≤ m := by omega
      rw [scanElems] at h
      rw [scanElems]
      cases hv : scanValue n s with
      | none => rw [hv] at h; simp at h
      | some p =>
        obtain ⟨w, r1⟩ := p
        rw [hv] at h
        simp only [Option.bind_some] at h
        cases hw : skipWs r1 with
        | nil => rw [hw] at h; simp at h
        | cons c u =>
          have hne : r1 ≠ [] := by rintro rfl; simp [skipWs] at hw
          rw [ih1 m s w r1 t hm hv (.inl hne)]
          simp only [Option.bind_some]
          rw [skipWs_append hw]
          rw [hw] at h
          split at h
          · rename_i e
            cases e
            simp only
            cases hq : scanElems n u with
            | none => rw [hq] at h; simp at h
            | some p =>
              obtain ⟨q, r'⟩ := p
              rw [hq] at h
              simp only [Option.map_some, Option.some.injEq, Prod.mk.injEq] at h
              obtain ⟨rfl, rfl⟩ := h
              rw [ih2 m u q r' t hm hq]; rfl
          · rename_i e
            cases e
            simp only [Option.some.injEq, Prod.mk.injEq] at h ⊢
            exact ⟨h.1, by rw [h.2]⟩
          · cases h
    · intro m s v r t hm h
      obtain ⟨m, rfl⟩ : ∃ k, m = k + 1 := ⟨m - 1, by omega⟩
      have hm : n ≤ m := by omega
      rw [scanMembers] at h
      rw [scanMembers]
      cases hs : skipWs s with
      | nil => rw [hs] at h; simp at h
      | cons c u =>
        rw [skipWs_append hs]
        rw [hs] at h
        split at h
        · rename_i e
          cases e
          simp only
          cases hk : scanStr u with
          | none => rw [hk] at h; simp at h
          | some p =>
            obtain ⟨k, r0⟩ := p
            rw [scanStr_append hk]
            rw [hk] at h
            simp only [Option.bind_some] at h ⊢
            cases hc : skipWs r0 with
            | nil => rw [hc] at h; simp at h
            | cons c' u' =>
              rw [skipWs_append hc]
              rw [hc] at h
              split at h
              · rename_i e
                cases e
                simp only
                cases hv : scanValue n u' with
                | none => rw [hv] at h; simp at h
                | some p =>
                  obtain ⟨w, r1⟩ := p
                  rw [hv] at h
                  simp only [Option.bind_some] at h
                  cases hw : skipWs r1 with
                  | nil => rw [hw] at h; simp at h
                  | cons c u =>
                    have hne : r1 ≠ [] := by rintro rfl; simp [skipWs] at hw
                    rw [ih1 m u' w r1 t hm hv (.inl hne)]
                    simp only [Option.bind_some]
                    rw [skipWs_append hw]
                    rw [hw] at h
                    split at h
                    · rename_i e
                      cases e
                      simp only
                      cases hq : scanMembers n u with
                      | none => rw [hq] at h; simp at h
                      | some p =>
                        obtain ⟨q, r'⟩ := p
                        rw [hq] at h
                        simp only [Option.map_some, Option.some.injEq, Prod.mk.injEq] at h
                        obtain ⟨rfl, rfl⟩ := h
                        rw [ih3 m u q r' t hm hq]; rfl
                    · rename_i e
                      cases e
                      simp only [Option.some.injEq, Prod.mk.injEq] at h ⊢
                      exact ⟨h.1, by rw [h.2]⟩
                    · cases h
              · cases h
        · cases h

/-- A proper prefix of an object is not a JSON text. -/
theorem scan_prefix {kvs : List (Bytes × JVal)} (hp : (JVal.obj kvs).plain) {p t : Bytes} (h : (JVal.obj kvs).enc = p ++ t) (ht : t ≠ []) :
    scan p = none := by
  rw [scan]
  cases hv : scanValue (2 * p.length + 2) p with
  | none => rfl
  | some x =>
    obtain ⟨v, r⟩ := x
    simp only
    split
    · rename_i hr
      exfalso
      have hc : v.closed := by
        cases v <;> try trivial
        -- a number cannot start with a brace
        exfalso
        rw [scanValue] at hv
        cases p with
        | nil => simp [skipWs, scanNum_other, scanBody, scanInt_other, scanDigits, List.span_eq_takeWhile_dropWhile] at hv
        | cons c p =>
          rw [JVal.enc, List.cons_append] at h
          simp only [List.cons.injEq] at h
          rw [← h.1, skipWs_cons _ _ (by decide)] at hv
          simp only at hv
          split at hv
          · simp at hv
          · cases hm : scanMembers (2 * ((123 : UInt8) :: p).length + 1) _ <;> rw [hm] at hv <;> simp at hv
      have h1 := (scan_extend (2 * p.length + 2)).1 (2 * (JVal.obj kvs).enc.length + 2) p v r t (by rw [h, List.length_append]; omega) hv (.inr hc)
      have h2 := scanValue_enc (.obj kvs) (2 * (JVal.obj kvs).enc.length + 2) [] hp (.inl rfl) (by omega)
      rw [List.append_nil] at h2
      rw [← h, h2] at h1
      simp only [Option.some.injEq, Prod.mk.injEq] at h1
      have := h1.2.symm
      rw [List.append_eq_nil_iff] at this
      exact ht this.2
    · rfl

end Verif

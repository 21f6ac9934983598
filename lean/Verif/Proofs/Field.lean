import Verif.Proofs.LimbPoly
import Verif.Spec.Field
/-
Field arithmetic: interval and congruence checks of the limb programs, lifted to the functions of Model/Field.lean.
-/
namespace Verif.Limb
set_option maxRecDepth 100000

/-- `[-e, e]` on even and `[-o, o]` on odd limbs. -/
def limbs (x : Nat) (e o : Int) : Bd :=
  [(x, -e, e), (x+1, -o, o), (x+2, -e, e), (x+3, -o, o), (x+4, -e, e), (x+5, -o, o), (x+6, -e, e), (x+7, -o, o),
   (x+8, -e, e), (x+9, -o, o)]

/-- The represented integer, as a polynomial in the variables. -/
def lin (x : Nat) : Poly :=
  [(x+1, 1), (x+2, 2^26), (x+3, 2^51), (x+4, 2^77), (x+5, 2^102), (x+6, 2^128), (x+7, 2^153), (x+8, 2^179),
   (x+9, 2^204), (x+10, 2^230)]

theorem mono_var (ρ : Env) (x : Nat) (h : x + 1 < 1024) : mono ρ (x + 1) = ρ x := by
  rw [mono_lt ρ h]; rfl

theorem lin_eval (ρ : Env) (x : Nat) (h : x + 10 < 1024) : Poly.eval ρ (lin x) = (ρ.fe x).val := by
  simp only [lin, Poly.eval]
  rw [mono_var ρ x (by omega), mono_var ρ (x+1) (by omega), mono_var ρ (x+2) (by omega), mono_var ρ (x+3) (by omega),
    mono_var ρ (x+4) (by omega), mono_var ρ (x+5) (by omega), mono_var ρ (x+6) (by omega), mono_var ρ (x+7) (by omega),
    mono_var ρ (x+8) (by omega), mono_var ρ (x+9) (by omega)]
  simp only [Fe.val, Env.fe, show ((0 : Fin 10) : Nat) = 0 from rfl, show ((1 : Fin 10) : Nat) = 1 from rfl,
    show ((2 : Fin 10) : Nat) = 2 from rfl, show ((3 : Fin 10) : Nat) = 3 from rfl,
    show ((4 : Fin 10) : Nat) = 4 from rfl, show ((5 : Fin 10) : Nat) = 5 from rfl,
    show ((6 : Fin 10) : Nat) = 6 from rfl, show ((7 : Fin 10) : Nat) = 7 from rfl,
    show ((8 : Fin 10) : Nat) = 8 from rfl, show ((9 : Fin 10) : Nat) = 9 from rfl, Nat.add_zero]
  omega

theorem Bd.ok_of_all (b : Bd) (ρ : Env) (h : ∀ p ∈ b, p.2.1 ≤ ρ p.1 ∧ ρ p.1 ≤ p.2.2) : b.ok ρ := by
  induction b with
  | nil => intro x i hi; simp [Bd.get] at hi
  | cons p b ih =>
    obtain ⟨y, j⟩ := p
    intro x i hi
    simp only [Bd.get] at hi
    by_cases hxy : Nat.beq y x = true
    · simp only [hxy, cond_true] at hi
      cases hi
      have := Nat.eq_of_beq_eq_true hxy
      subst this
      exact h (y, j) (List.mem_cons_self ..)
    · simp only [Bool.not_eq_true] at hxy
      simp only [hxy, cond_false] at hi
      exact ih (fun p hp => h p (List.mem_cons_of_mem _ hp)) x i hi


theorem Bd.ok_append {b c : Bd} {ρ : Env} (hb : ∀ p ∈ b, p.2.1 ≤ ρ p.1 ∧ ρ p.1 ≤ p.2.2)
    (hc : ∀ p ∈ c, p.2.1 ≤ ρ p.1 ∧ ρ p.1 ≤ p.2.2) : (b ++ c).ok ρ :=
  Bd.ok_of_all _ _ fun p hp => (List.mem_append.1 hp).elim (hb p) (hc p)

/-- Limbs in symmetric intervals. -/
def Fe.lim (e o : Int) (t : Fe) : Prop := ∀ i : Fin 10,
  -(if i.val % 2 = 0 then e else o) ≤ t i ∧ t i ≤ (if i.val % 2 = 0 then e else o)

theorem within_lim {c : Int} {t : Fe} (h : t.within c) (e o : Int) (he : c * 2 ^ 25 < 100 * (e + 1))
    (ho : c * 2 ^ 24 < 100 * (o + 1)) : t.lim e o := by
  intro i
  have hi := h i
  rcases Nat.mod_two_eq_zero_or_one i.val with h2 | h2
  · rw [if_pos h2]; rw [h2] at hi; simp only [Nat.sub_zero] at hi; omega
  · rw [if_neg (by omega)]; rw [h2] at hi; simp only [show 25 - 1 = 24 from rfl] at hi; omega

theorem lim_within {c : Int} {t : Fe} {e o : Int} (h : t.lim e o) (he : 100 * e ≤ c * 2 ^ 25)
    (ho : 100 * o ≤ c * 2 ^ 24) : t.within c := by
  intro i
  have hi := h i
  rcases Nat.mod_two_eq_zero_or_one i.val with h2 | h2
  · rw [if_pos h2] at hi; rw [h2]; simp only [Nat.sub_zero]; omega
  · rw [if_neg (by omega)] at hi; rw [h2]; simp only [show 25 - 1 = 24 from rfl]; omega

theorem limbs_all {x : Nat} {e o : Int} {ρ : Env} (h : (ρ.fe x).lim e o) :
    ∀ p ∈ limbs x e o, p.2.1 ≤ ρ p.1 ∧ ρ p.1 ≤ p.2.2 := by
  intro p hp
  simp only [limbs, List.mem_cons, List.not_mem_nil, or_false] at hp
  rcases hp with rfl | rfl | rfl | rfl | rfl | rfl | rfl | rfl | rfl | rfl
  · exact h 0
  · exact h 1
  · exact h 2
  · exact h 3
  · exact h 4
  · exact h 5
  · exact h 6
  · exact h 7
  · exact h 8
  · exact h 9

/-- The interval known for `x`, if any, is inside `[-m, m]`. -/
def Bd.inside (b : Bd) (x : Nat) (m : Int) : Bool :=
  match b.get x with
  | some (lo, hi) => decide (-m ≤ lo) && decide (hi ≤ m)
  | none => false

theorem inside_sound {b : Bd} {ρ : Env} (hb : b.ok ρ) {x : Nat} {m : Int} (h : b.inside x m = true) :
    -m ≤ ρ x ∧ ρ x ≤ m := by
  unfold Bd.inside at h
  cases hg : b.get x with
  | none => rw [hg] at h; cases h
  | some i =>
    rw [hg] at h
    simp only [Bool.and_eq_true, decide_eq_true_eq] at h
    have := hb x i hg
    omega

/-- The ten limbs from `x` on are inside the given symmetric intervals. -/
def Bd.lim (b : Bd) (x : Nat) (e o : Int) : Bool :=
  (List.range 10).all fun i => b.inside (x + i) (bif Nat.beq (i % 2) 0 then e else o)

theorem lim_sound {b : Bd} {ρ : Env} (hb : b.ok ρ) {x : Nat} {e o : Int} (h : b.lim x e o = true) :
    (ρ.fe x).lim e o := by
  intro i
  have := List.all_eq_true.1 h i.val (List.mem_range.2 i.isLt)
  have := inside_sound hb this
  rcases Nat.mod_two_eq_zero_or_one i.val with h2 | h2
  · rw [h2] at this; rw [if_pos h2]; exact this
  · rw [h2] at this; rw [if_neg (by omega)]; exact this

/-- Interval check of a program whose result is ten limbs. -/
def boundsTo (prog : Prog) (b : Bd) (x : Nat) (e o : Int) : Bool :=
  match bounds prog b [] with
  | some b' => b'.lim x e o
  | none => false

theorem boundsTo_sound {prog : Prog} {b : Bd} {ρ : Env} (hb : b.ok ρ) {x : Nat} {e o : Int}
    (h : boundsTo prog b x e o = true) :
    run prog ρ = runExact prog ρ ∧ ((run prog ρ).fe x).lim e o ∧ safeRun prog ρ := by
  unfold boundsTo at h
  cases hg : bounds prog b [] with
  | none => rw [hg] at h; cases h
  | some b' =>
    rw [hg] at h
    obtain ⟨h1, h2, h3⟩ := bounds_sound prog b [] ρ b' hb (by simp) hg
    exact ⟨h1, lim_sound h2 h, h3⟩

theorem fe_place (x : Nat) (f : Fe) (ρ : Env) : (place x f ρ).fe x = f := by
  funext i
  simp only [Env.fe, place]
  rw [dif_pos ⟨by omega, by omega⟩]
  congr 1
  apply Fin.ext
  simp

theorem fe_place_ne (x y : Nat) (f : Fe) (ρ : Env) (h : x + 10 ≤ y ∨ y + 10 ≤ x) : (place x f ρ).fe y = ρ.fe y := by
  funext i
  simp only [Env.fe, place]
  rw [dif_neg (by omega)]

/-- The two operands in place. -/
def env2 (f g : Fe) : Env := place 0 f (place 10 g zeroEnv)

theorem env2_fe (f g : Fe) : (env2 f g).fe 0 = f ∧ (env2 f g).fe 10 = g :=
  ⟨fe_place _ _ _, by rw [env2, fe_place_ne _ _ _ _ (by omega), fe_place]⟩

theorem env2_ok {f g : Fe} {e o e' o' : Int} (hf : f.lim e o) (hg : g.lim e' o') :
    (limbs 0 e o ++ limbs 10 e' o').ok (env2 f g) := by
  apply Bd.ok_append
  · apply limbs_all; rw [(env2_fe f g).1]; exact hf
  · apply limbs_all; rw [(env2_fe f g).2]; exact hg

def env1 (f : Fe) : Env := place 0 f zeroEnv
theorem env1_fe (f : Fe) : (env1 f).fe 0 = f := fe_place _ _ _
theorem env1_ok {f : Fe} {e o : Int} (hf : f.lim e o) : (limbs 0 e o).ok (env1 f) := by
  apply Bd.ok_of_all; apply limbs_all; rw [env1_fe f]; exact hf

theorem cong_mod {m : Nat} {a b : Int} (h : Cong m a b) : a % m = b % m :=
  Int.emod_eq_emod_iff_emod_sub_eq_zero.2 (Int.emod_eq_zero_of_dvd h)

/-! ### Multiplication and squaring -/

theorem mul_bounds : boundsTo (feMulP ++ feCombineP) (limbs 0 110729625 55364812 ++ limbs 10 110729625 55364812) 20
    33554432 16778300 = true := by decide +kernel
theorem mul_wp : wp P25519 (feMulP ++ feCombineP) (lin 20) = Poly.mul P25519 (lin 0) (lin 10) := by decide +kernel
theorem mul_some : (Poly.mul P25519 (lin 0) (lin 10)).isSome = true := by decide +kernel

theorem feMul_all (f g : Fe) (hf : f.within 330) (hg : g.within 330) :
    safeRun (feMulP ++ feCombineP) (env2 f g) ∧ (feMul f g).within 101 ∧
      Cong P25519 (feMul f g).val (f.val * g.val) := by
  have hok := env2_ok (within_lim hf 110729625 55364812 (by omega) (by omega))
    (within_lim hg 110729625 55364812 (by omega) (by omega))
  obtain ⟨h1, h2, h3⟩ := boundsTo_sound hok mul_bounds
  refine ⟨h3, lim_within h2 (by omega) (by omega), ?_⟩
  obtain ⟨q, hq⟩ := Option.isSome_iff_exists.1 mul_some
  have := wp_sound P25519 _ _ q (env2 f g) (mul_wp.trans hq)
  rw [← h1, lin_eval _ _ (by omega)] at this
  refine this.trans ((mul_eval P25519 (env2 f g) _ _ q hq).trans ?_)
  rw [lin_eval _ _ (by omega), lin_eval _ _ (by omega), (env2_fe f g).1, (env2_fe f g).2]
  exact Cong.refl _ _

theorem square_bounds : boundsTo (feSquareP ++ feCombineP) (limbs 0 110729625 55364812) 20
    33554432 16778300 = true := by decide +kernel
theorem square_wp : (wp P25519 (feSquareP ++ feCombineP) (lin 20)).map (Poly.norm P25519) =
    (Poly.mul P25519 (lin 0) (lin 0)).map (Poly.norm P25519) := by decide +kernel
theorem square2_bounds : boundsTo (feSquareP ++ (feDoubleP ++ feCombineP)) (limbs 0 110729625 55364812) 20
    33554432 16778300 = true := by decide +kernel
theorem square2_wp : (wp P25519 (feSquareP ++ (feDoubleP ++ feCombineP)) (lin 20)).map (Poly.norm P25519) =
    (Poly.mul P25519 (lin 0) (Poly.scale P25519 2 (lin 0))).map (Poly.norm P25519) := by decide +kernel
theorem square_some : (Poly.mul P25519 (lin 0) (lin 0)).isSome = true := by decide +kernel
theorem square2_some : (Poly.mul P25519 (lin 0) (Poly.scale P25519 2 (lin 0))).isSome = true := by decide +kernel

/-- From equality of normal forms to congruence. -/
theorem norm_cong {m : Nat} {a b : Option Poly} (h : a.map (Poly.norm m) = b.map (Poly.norm m)) {q : Poly}
    (hq : b = some q) : ∃ q', a = some q' ∧ ∀ ρ, Cong m (Poly.eval ρ q') (Poly.eval ρ q) := by
  subst hq
  cases a with
  | none => cases h
  | some q' =>
    refine ⟨q', rfl, fun ρ => ?_⟩
    simp only [Option.map_some, Option.some.injEq] at h
    exact (norm_eval m ρ q').symm.trans ((Cong.of_eq (by rw [h])).trans (norm_eval m ρ q))

theorem feSquare_all (f : Fe) (hf : f.within 330) :
    safeRun (feSquareP ++ feCombineP) (env1 f) ∧ (feSquare f).within 101 ∧
      Cong P25519 (feSquare f).val (f.val * f.val) := by
  have hok := env1_ok (within_lim hf 110729625 55364812 (by omega) (by omega))
  obtain ⟨h1, h2, h3⟩ := boundsTo_sound hok square_bounds
  refine ⟨h3, lim_within h2 (by omega) (by omega), ?_⟩
  obtain ⟨q, hq⟩ := Option.isSome_iff_exists.1 square_some
  obtain ⟨q', hq', hc⟩ := norm_cong square_wp hq
  have := wp_sound P25519 _ _ q' (env1 f) hq'
  rw [← h1, lin_eval _ _ (by omega)] at this
  refine this.trans ((hc _).trans ((mul_eval P25519 (env1 f) _ _ q hq).trans ?_))
  rw [lin_eval _ _ (by omega), env1_fe]
  exact Cong.refl _ _

theorem feSquare2_all (f : Fe) (hf : f.within 330) :
    safeRun (feSquareP ++ (feDoubleP ++ feCombineP)) (env1 f) ∧ (feSquare2 f).within 101 ∧
      Cong P25519 (feSquare2 f).val (2 * (f.val * f.val)) := by
  have hok := env1_ok (within_lim hf 110729625 55364812 (by omega) (by omega))
  obtain ⟨h1, h2, h3⟩ := boundsTo_sound hok square2_bounds
  refine ⟨h3, lim_within h2 (by omega) (by omega), ?_⟩
  obtain ⟨q, hq⟩ := Option.isSome_iff_exists.1 square2_some
  obtain ⟨q', hq', hc⟩ := norm_cong square2_wp hq
  have := wp_sound P25519 _ _ q' (env1 f) hq'
  rw [← h1, lin_eval _ _ (by omega)] at this
  refine this.trans ((hc _).trans ((mul_eval P25519 (env1 f) _ _ q hq).trans ?_))
  refine (Cong.mul_left _ (scale_eval P25519 _ 2 _)).trans ?_
  rw [lin_eval _ _ (by omega), env1_fe]
  exact Cong.of_eq (by rw [Int.mul_left_comm])

/-! ### Addition, subtraction, negation -/

theorem fin10 {Q : Fin 10 → Prop} (h0 : Q 0) (h1 : Q 1) (h2 : Q 2) (h3 : Q 3) (h4 : Q 4) (h5 : Q 5) (h6 : Q 6)
    (h7 : Q 7) (h8 : Q 8) (h9 : Q 9) : ∀ i, Q i := by
  intro ⟨i, hi⟩
  match i, hi with
  | 0, _ => exact h0
  | 1, _ => exact h1
  | 2, _ => exact h2
  | 3, _ => exact h3
  | 4, _ => exact h4
  | 5, _ => exact h5
  | 6, _ => exact h6
  | 7, _ => exact h7
  | 8, _ => exact h8
  | 9, _ => exact h9

/-- Without wrap-around, limb by limb. -/
theorem feAdd_eq (f g : Fe) (h : ∀ i, -2147483648 ≤ f i + g i ∧ f i + g i ≤ 2147483647) :
    feAdd f g = fun i => f i + g i := by
  funext i
  revert i
  apply fin10 <;>
    exact wrap_id .w32 _ (h _).1 (h _).2

theorem feSub_eq (f g : Fe) (h : ∀ i, -2147483648 ≤ f i - g i ∧ f i - g i ≤ 2147483647) :
    feSub f g = fun i => f i - g i := by
  funext i
  revert i
  apply fin10 <;>
    exact wrap_id .w32 _ (h _).1 (h _).2

theorem feNeg_eq (f : Fe) (h : ∀ i, -2147483648 ≤ - f i ∧ - f i ≤ 2147483647) :
    feNeg f = fun i => - f i := by
  funext i
  revert i
  apply fin10 <;>
    exact wrap_id .w32 _ (h _).1 (h _).2

end Verif.Limb

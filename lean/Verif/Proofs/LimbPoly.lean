import Verif.Proofs.Limb
/-
Polynomials of degree at most two over the variables of a limb program, as sorted lists of (monomial code, coefficient),
and the weakest-precondition transformer on them.
-/
namespace Verif.Limb

/-- Monomial codes: 0 is the constant 1, `x + 1` the variable `x`, `(x + 1) * 1024 + (y + 1)` the product `x * y`. -/
abbrev Poly := List (Nat × Int)

/-- Value of a factor code. -/
def fac (ρ : Env) : Nat → Int
  | 0 => 1
  | x + 1 => ρ x

def mono (ρ : Env) (c : Nat) : Int := fac ρ (c / 1024) * fac ρ (c % 1024)

def Poly.eval (ρ : Env) : Poly → Int
  | [] => 0
  | (c, a) :: p => a * mono ρ c + Poly.eval ρ p

/-- Reduce a coefficient modulo `m` to the smallest absolute value (`m = 0`: leave it). -/
def red (m : Nat) (a : Int) : Int := a.bmod m

/-- Add two sorted polynomials, merging equal monomials and dropping zero coefficients modulo `m`. `fuel` bounds the steps. -/
def addFuel (m : Nat) : Nat → Poly → Poly → Poly
  | 0, p, q => p ++ q
  | _ + 1, [], q => q
  | _ + 1, p, [] => p
  | n + 1, (c, a) :: p, (d, b) :: q =>
    bif Nat.beq c d then
      if red m (a + b) = 0 then addFuel m n p q else (c, red m (a + b)) :: addFuel m n p q
    else bif Nat.blt c d then (c, a) :: addFuel m n p ((d, b) :: q)
    else (d, b) :: addFuel m n ((c, a) :: p) q

def Poly.add (m : Nat) (p q : Poly) : Poly := addFuel m (p.length + q.length) p q

def Poly.scale (m : Nat) (k : Int) (p : Poly) : Poly := p.map fun (c, a) => (c, red m (k * a))

/-- Monomial times a factor code; fails above degree two. -/
def mulFac (c f : Nat) : Option Nat :=
  bif Nat.beq f 0 then some c
  else bif Nat.blt c 1024 && Nat.blt f 1024 then
    bif Nat.beq c 0 then some f
    else bif Nat.ble c f then some (c * 1024 + f) else some (f * 1024 + c)
  else none

def Poly.mulFac (f : Nat) : Poly → Option Poly
  | [] => some []
  | (c, a) :: p => (Limb.mulFac c f).bind fun c' => (Poly.mulFac f p).map ((c', a) :: ·)

/-- Sort by insertion (after multiplying by a factor the order may be lost). -/
def Poly.norm (m : Nat) (p : Poly) : Poly := p.foldr (fun t acc => Poly.add m [t] acc) []

/-- Product where the first operand has degree at most one. -/
def Poly.mul (m : Nat) : Poly → Poly → Option Poly
  | [], _ => some []
  | (c, a) :: p, q =>
    bif Nat.blt c 1024 then
      (q.mulFac c).bind fun q' => (Poly.mul m p q).map fun r => Poly.add m (Poly.scale m a (Poly.norm m q')) r
    else none

/-- The polynomial of an expression without shifts right and masks. -/
def Ex.poly (m : Nat) : Ex → Option Poly
  | .v x => bif Nat.blt x 1023 then some [(x + 1, 1)] else none
  | .k n => some (if n = 0 then [] else [(0, n)])
  | .add _ a b => (a.poly m).bind fun p => (b.poly m).map fun q => Poly.add m p q
  | .sub _ a b => (a.poly m).bind fun p => (b.poly m).map fun q => Poly.add m p (q.scale m (-1))
  | .mul _ a b => (a.poly m).bind fun p => (b.poly m).bind fun q => Poly.mul m p q
  | .neg _ a => (a.poly m).map (Poly.scale m (-1))
  | .and _ _ _ => none
  | .or _ a b => (a.poly m).bind fun p => (b.poly m).map fun q => Poly.add m p q
  | .shl _ a n => (a.poly m).map (Poly.scale m (2 ^ n))
  | .shr _ _ => none
  | .cast _ a => a.poly m

/-- Does the monomial contain the variable, and what is the other factor? -/
def cofac (x c : Nat) : Option Nat :=
  bif Nat.beq (c % 1024) (x + 1) then some (c / 1024)
  else bif Nat.beq (c / 1024) (x + 1) then some (c % 1024)
  else none

/-- Substitute `q` for the variable `x` in `p`; `q = none` (not a polynomial) is allowed only when `x` does not occur. -/
def Poly.subst (m : Nat) (x : Nat) (q : Option Poly) : Poly → Option Poly
  | [] => some []
  | (c, a) :: p =>
    (Poly.subst m x q p).bind fun r =>
    match cofac x c with
    | none => some (Poly.add m [(c, a)] r)
    | some f =>
      bif Nat.beq f (x + 1) then
        q.bind fun q => (Poly.mul m q q).map fun q' => Poly.add m (Poly.scale m a (Poly.norm m q')) r
      else q.bind fun q => (q.mulFac f).map fun q' => Poly.add m (Poly.scale m a (Poly.norm m q')) r

def wp (m : Nat) : Prog → Poly → Option Poly
  | [], p => some p
  | (x, e) :: prog, p => (wp m prog p).bind fun p' => Poly.subst m x (e.poly m) p'

/-! ### Soundness -/

/-- Equality modulo `m` (`m = 0`: equality). -/
def Cong (m : Nat) (a b : Int) : Prop := (m : Int) ∣ a - b

theorem Cong.refl (m : Nat) (a : Int) : Cong m a a := by simp [Cong]
theorem Cong.of_eq {m : Nat} {a b : Int} (h : a = b) : Cong m a b := h ▸ Cong.refl m a
theorem Cong.symm {m : Nat} {a b : Int} (h : Cong m a b) : Cong m b a := by
  obtain ⟨k, hk⟩ := h; exact ⟨-k, by rw [Int.mul_neg]; omega⟩
theorem Cong.trans {m : Nat} {a b c : Int} (h : Cong m a b) (h' : Cong m b c) : Cong m a c := by
  obtain ⟨k, hk⟩ := h; obtain ⟨l, hl⟩ := h'; exact ⟨k + l, by rw [Int.mul_add]; omega⟩
theorem Cong.add {m : Nat} {a b c d : Int} (h : Cong m a b) (h' : Cong m c d) : Cong m (a + c) (b + d) := by
  obtain ⟨k, hk⟩ := h; obtain ⟨l, hl⟩ := h'; exact ⟨k + l, by rw [Int.mul_add]; omega⟩
theorem Cong.mul_right {m : Nat} {a b : Int} (h : Cong m a b) (c : Int) : Cong m (a * c) (b * c) := by
  obtain ⟨k, hk⟩ := h; exact ⟨k * c, by rw [← Int.sub_mul, hk, Int.mul_assoc]⟩
theorem Cong.mul_left {m : Nat} {a b : Int} (c : Int) (h : Cong m a b) : Cong m (c * a) (c * b) := by
  rw [Int.mul_comm c a, Int.mul_comm c b]; exact h.mul_right c
theorem Cong.sub {m : Nat} {a b c d : Int} (h : Cong m a b) (h' : Cong m c d) : Cong m (a - c) (b - d) := by
  obtain ⟨k, hk⟩ := h; obtain ⟨l, hl⟩ := h'; exact ⟨k - l, by rw [Int.mul_sub]; omega⟩

theorem red_cong (m : Nat) (a : Int) : Cong m (red m a) a := by
  simp only [Cong, red]
  exact Int.dvd_bmod_sub_self

theorem blt_iff {a b : Nat} : Nat.blt a b = true ↔ a < b := by
  simp [Nat.blt, Nat.succ_le_iff]

theorem addFuel_eval (m : Nat) (ρ : Env) : ∀ (n : Nat) (p q : Poly),
    Cong m (Poly.eval ρ (addFuel m n p q)) (Poly.eval ρ p + Poly.eval ρ q) := by
  intro n
  induction n with
  | zero =>
    intro p q
    apply Cong.of_eq
    simp only [addFuel]
    induction p with
    | nil => simp [Poly.eval]
    | cons t p ih => obtain ⟨c, a⟩ := t; simp only [List.cons_append, Poly.eval, ih]; omega
  | succ n ih =>
    intro p q
    match p, q with
    | [], q => exact Cong.of_eq (by simp [addFuel, Poly.eval])
    | (c, a) :: p, [] => exact Cong.of_eq (by simp [addFuel, Poly.eval])
    | (c, a) :: p, (d, b) :: q =>
      simp only [addFuel]
      cases hcd : Nat.beq c d with
      | true =>
        have := Nat.eq_of_beq_eq_true hcd
        subst this
        simp only [cond_true]
        have e : Cong m (red m (a + b) * mono ρ c) (a * mono ρ c + b * mono ρ c) :=
          ((red_cong m (a + b)).mul_right _).trans (Cong.of_eq (Int.add_mul _ _ _))
        split
        · rename_i h0
          rw [h0, Int.zero_mul] at e
          have := e.add (ih p q)
          rw [Int.zero_add] at this
          refine this.trans (Cong.of_eq ?_)
          simp only [Poly.eval]; omega
        · have := e.add (ih p q)
          refine this.trans (Cong.of_eq ?_)
          simp only [Poly.eval]; omega
      | false =>
        simp only [cond_false]
        cases Nat.blt c d with
        | true =>
          simp only [cond_true, Poly.eval]
          refine ((Cong.refl m _).add (ih p ((d, b) :: q))).trans (Cong.of_eq ?_)
          simp only [Poly.eval]; omega
        | false =>
          simp only [cond_false, Poly.eval]
          refine ((Cong.refl m _).add (ih ((c, a) :: p) q)).trans (Cong.of_eq ?_)
          simp only [Poly.eval]; omega

theorem add_eval (m : Nat) (ρ : Env) (p q : Poly) :
    Cong m (Poly.eval ρ (Poly.add m p q)) (Poly.eval ρ p + Poly.eval ρ q) := addFuel_eval m ρ _ p q

theorem scale_eval (m : Nat) (ρ : Env) (k : Int) (p : Poly) :
    Cong m (Poly.eval ρ (Poly.scale m k p)) (k * Poly.eval ρ p) := by
  induction p with
  | nil => exact Cong.of_eq (by simp [Poly.scale, Poly.eval])
  | cons t p ih =>
    obtain ⟨c, a⟩ := t
    simp only [Poly.scale, List.map_cons, Poly.eval]
    refine (((red_cong m (k * a)).mul_right _).add ih).trans (Cong.of_eq ?_)
    rw [Int.mul_add, Int.mul_assoc]

theorem norm_eval (m : Nat) (ρ : Env) (p : Poly) : Cong m (Poly.eval ρ (Poly.norm m p)) (Poly.eval ρ p) := by
  induction p with
  | nil => exact Cong.refl m _
  | cons t p ih =>
    obtain ⟨c, a⟩ := t
    simp only [Poly.norm, List.foldr_cons]
    refine (add_eval m ρ _ _).trans ?_
    simp only [Poly.eval, Int.add_zero]
    exact (Cong.refl m _).add ih

theorem mono_lt (ρ : Env) {c : Nat} (h : c < 1024) : mono ρ c = fac ρ c := by
  simp [mono, Nat.div_eq_of_lt h, Nat.mod_eq_of_lt h, fac]

theorem mono_pair (ρ : Env) {c f : Nat} (h : f < 1024) : mono ρ (c * 1024 + f) = fac ρ c * fac ρ f := by
  have e1 : (c * 1024 + f) / 1024 = c := by omega
  have e2 : (c * 1024 + f) % 1024 = f := by omega
  simp [mono, e1, e2]

theorem mulFac_eval (ρ : Env) (c f c' : Nat) (h : mulFac c f = some c') : mono ρ c' = mono ρ c * fac ρ f := by
  unfold mulFac at h
  cases hf : Nat.beq f 0 with
  | true =>
    have := Nat.eq_of_beq_eq_true hf; subst this
    rw [hf] at h; cases h; simp [fac]
  | false =>
    rw [hf] at h
    simp only [cond_false] at h
    cases hc : (Nat.blt c 1024 && Nat.blt f 1024) with
    | false => rw [hc] at h; cases h
    | true =>
      rw [hc] at h
      simp only [cond_true] at h
      simp only [Bool.and_eq_true, blt_iff] at hc
      cases hc0 : Nat.beq c 0 with
      | true =>
        have := Nat.eq_of_beq_eq_true hc0; subst this
        rw [hc0] at h; cases h
        rw [mono_lt ρ hc.2, mono_lt ρ (by omega)]; simp [fac]
      | false =>
        rw [hc0] at h
        simp only [cond_false] at h
        cases hle : Nat.ble c f with
        | true => rw [hle] at h; cases h; rw [mono_pair ρ hc.2, mono_lt ρ hc.1]
        | false => rw [hle] at h; cases h; rw [mono_pair ρ hc.1, mono_lt ρ hc.1, Int.mul_comm]

theorem pmulFac_eval (ρ : Env) (f : Nat) : ∀ (p q : Poly), p.mulFac f = some q → Poly.eval ρ q = Poly.eval ρ p * fac ρ f
  | [], q, h => by cases h; simp [Poly.eval]
  | (c, a) :: p, q, h => by
    simp only [Poly.mulFac, Option.bind_eq_some_iff, Option.map_eq_some_iff] at h
    obtain ⟨c', hc, r, hr, rfl⟩ := h
    simp only [Poly.eval, pmulFac_eval ρ f p r hr, mulFac_eval ρ c f c' hc]
    rw [Int.add_mul, Int.mul_assoc]

theorem mul_eval (m : Nat) (ρ : Env) (q : Poly) : ∀ (p r : Poly), Poly.mul m p q = some r →
    Cong m (Poly.eval ρ r) (Poly.eval ρ p * Poly.eval ρ q)
  | [], r, h => by cases h; exact Cong.of_eq (by simp [Poly.eval])
  | (c, a) :: p, r, h => by
    simp only [Poly.mul] at h
    cases hc : Nat.blt c 1024 with
    | false => rw [hc] at h; cases h
    | true =>
      rw [hc] at h
      simp only [cond_true, Option.bind_eq_some_iff, Option.map_eq_some_iff] at h
      obtain ⟨q', hq, r', hr, rfl⟩ := h
      refine (add_eval m ρ _ _).trans ?_
      refine (((scale_eval m ρ a _).trans (Cong.mul_left a ((norm_eval m ρ q').trans
        (Cong.of_eq (pmulFac_eval ρ c q q' hq))))).add (mul_eval m ρ q p r' hr)).trans (Cong.of_eq ?_)
      rw [blt_iff] at hc
      simp only [Poly.eval]
      rw [mono_lt ρ hc, Int.add_mul, Int.mul_assoc, Int.mul_comm (Poly.eval ρ q)]

theorem poly_eval (m : Nat) (ρ : Env) : ∀ (e : Ex) (p : Poly), e.poly m = some p → Cong m (Poly.eval ρ p) (e.exact ρ) := by
  intro e
  induction e with
  | v x =>
    intro p h
    simp only [Ex.poly] at h
    cases hc : Nat.blt x 1023 with
    | false => rw [hc] at h; cases h
    | true =>
      rw [hc] at h; cases h
      rw [blt_iff] at hc
      exact Cong.of_eq (by simp [Poly.eval, Ex.exact, mono_lt ρ (by omega : x + 1 < 1024), fac])
  | k n =>
    intro p h
    simp only [Ex.poly] at h
    cases h
    split
    · rename_i h0; subst h0; exact Cong.of_eq (by simp [Poly.eval, Ex.exact])
    · exact Cong.of_eq (by simp [Poly.eval, Ex.exact, mono, fac])
  | add w a b iha ihb =>
    intro p h
    simp only [Ex.poly, Option.bind_eq_some_iff, Option.map_eq_some_iff] at h
    obtain ⟨q, hq, r, hr, rfl⟩ := h
    exact (add_eval m ρ _ _).trans ((iha q hq).add (ihb r hr))
  | or w a b iha ihb =>
    intro p h
    simp only [Ex.poly, Option.bind_eq_some_iff, Option.map_eq_some_iff] at h
    obtain ⟨q, hq, r, hr, rfl⟩ := h
    exact (add_eval m ρ _ _).trans ((iha q hq).add (ihb r hr))
  | sub w a b iha ihb =>
    intro p h
    simp only [Ex.poly, Option.bind_eq_some_iff, Option.map_eq_some_iff] at h
    obtain ⟨q, hq, r, hr, rfl⟩ := h
    refine (add_eval m ρ _ _).trans (((iha q hq).add ((scale_eval m ρ _ _).trans (Cong.mul_left (-1) (ihb r hr)))).trans
      (Cong.of_eq ?_))
    simp only [Ex.exact]; omega
  | mul w a b iha ihb =>
    intro p h
    simp only [Ex.poly, Option.bind_eq_some_iff] at h
    obtain ⟨q, hq, r, hr, h⟩ := h
    refine (mul_eval m ρ r q p h).trans ?_
    exact ((iha q hq).mul_right _).trans (Cong.mul_left _ (ihb r hr))
  | neg w a iha =>
    intro p h
    simp only [Ex.poly, Option.map_eq_some_iff] at h
    obtain ⟨q, hq, rfl⟩ := h
    refine ((scale_eval m ρ _ _).trans (Cong.mul_left (-1) (iha q hq))).trans (Cong.of_eq ?_)
    simp only [Ex.exact]; omega
  | and w a b _ _ => intro p h; cases h
  | shl w a n iha =>
    intro p h
    simp only [Ex.poly, Option.map_eq_some_iff] at h
    obtain ⟨q, hq, rfl⟩ := h
    refine ((scale_eval m ρ _ _).trans (Cong.mul_left _ (iha q hq))).trans (Cong.of_eq ?_)
    simp only [Ex.exact, Int.mul_comm]
  | shr a n _ => intro p h; cases h
  | cast w a iha => intro p h; exact iha p h

theorem fac_set_ne (ρ : Env) (x : Nat) (v : Int) {f : Nat} (h : f ≠ x + 1) : fac (ρ.set x v) f = fac ρ f := by
  cases f with
  | zero => rfl
  | succ f =>
    have : f ≠ x := fun e => h (by rw [e])
    simp [fac, Env.set, this]

theorem fac_set_eq (ρ : Env) (x : Nat) (v : Int) : fac (ρ.set x v) (x + 1) = v := by simp [fac, Env.set]

theorem subst_eval (m : Nat) (ρ : Env) (x : Nat) (v : Int) (q : Option Poly)
    (hq : ∀ q', q = some q' → Cong m (Poly.eval ρ q') v) : ∀ (p r : Poly), Poly.subst m x q p = some r →
    Cong m (Poly.eval (ρ.set x v) p) (Poly.eval ρ r)
  | [], r, h => by cases h; exact Cong.refl m _
  | (c, a) :: p, r, h => by
    simp only [Poly.subst, Option.bind_eq_some_iff] at h
    obtain ⟨r', hr, h⟩ := h
    have ih := subst_eval m ρ x v q hq p r' hr
    simp only [Poly.eval]
    cases hcf : cofac x c with
    | none =>
      rw [hcf] at h
      cases h
      have n1 : c % 1024 ≠ x + 1 := by
        intro e; simp [cofac, e] at hcf
      have n2 : c / 1024 ≠ x + 1 := by
        intro e
        unfold cofac at hcf
        rw [beqF n1, e] at hcf
        simp at hcf
      have e : mono (ρ.set x v) c = mono ρ c := by simp only [mono, fac_set_ne ρ x v n1, fac_set_ne ρ x v n2]
      refine Cong.symm ((add_eval m ρ _ _).trans ?_)
      simp only [Poly.eval, Int.add_zero, e]
      exact (Cong.refl m _).add ih.symm
    | some f =>
      rw [hcf] at h
      simp only at h
      cases hfx : Nat.beq f (x + 1) with
      | true =>
        rw [hfx] at h
        simp only [cond_true, Option.bind_eq_some_iff, Option.map_eq_some_iff] at h
        obtain ⟨q', hq', q2, hq2, rfl⟩ := h
        have hfe := Nat.eq_of_beq_eq_true hfx
        have em : mono (ρ.set x v) c = v * v := by
          unfold cofac at hcf
          cases h1 : Nat.beq (c % 1024) (x + 1) with
          | true =>
            rw [h1] at hcf
            simp only [cond_true, Option.some.injEq] at hcf
            have := Nat.eq_of_beq_eq_true h1
            simp only [mono, this, hcf, hfe, fac_set_eq]
          | false =>
            rw [h1] at hcf
            simp only [cond_false] at hcf
            cases h2 : Nat.beq (c / 1024) (x + 1) with
            | true =>
              rw [h2] at hcf
              simp only [cond_true, Option.some.injEq] at hcf
              have := Nat.eq_of_beq_eq_true h2
              simp only [mono, this, hcf, hfe, fac_set_eq]
            | false => rw [h2] at hcf; cases hcf
        refine Cong.symm ((add_eval m ρ _ _).trans (Cong.add ?_ ih.symm))
        refine (scale_eval m ρ _ _).trans (Cong.mul_left a ?_)
        refine (norm_eval m ρ q2).trans ((mul_eval m ρ q' q' q2 hq2).trans ?_)
        rw [em]
        exact ((hq q' hq').mul_right _).trans ((hq q' hq').mul_left _)
      | false =>
        rw [hfx] at h
        simp only [cond_false, Option.bind_eq_some_iff, Option.map_eq_some_iff] at h
        obtain ⟨q', hq', q2, hq2, rfl⟩ := h
        have hne : f ≠ x + 1 := by intro e; rw [e, Nat.beq_refl] at hfx; cases hfx
        have em : mono (ρ.set x v) c = v * fac ρ f := by
          unfold cofac at hcf
          cases h1 : Nat.beq (c % 1024) (x + 1) with
          | true =>
            rw [h1] at hcf; cases hcf
            have := Nat.eq_of_beq_eq_true h1
            simp only [mono, this, fac_set_eq, fac_set_ne ρ x v hne, Int.mul_comm]
          | false =>
            rw [h1] at hcf
            simp only [cond_false] at hcf
            cases h2 : Nat.beq (c / 1024) (x + 1) with
            | true =>
              rw [h2] at hcf; cases hcf
              have := Nat.eq_of_beq_eq_true h2
              simp only [mono, this, fac_set_eq, fac_set_ne ρ x v hne]
            | false => rw [h2] at hcf; cases hcf
        refine Cong.symm ((add_eval m ρ _ _).trans (Cong.add ?_ ih.symm))
        refine (scale_eval m ρ _ _).trans (Cong.mul_left a ?_)
        refine (norm_eval m ρ q2).trans ?_
        rw [pmulFac_eval ρ f q' q2 hq2, em]
        exact (hq q' hq').mul_right _

/-- The value of `p` after the program is, modulo `m`, the value of `wp` before it. -/
theorem wp_sound (m : Nat) : ∀ (prog : Prog) (p q : Poly) (ρ : Env), wp m prog p = some q →
    Cong m (Poly.eval (runExact prog ρ) p) (Poly.eval ρ q)
  | [], p, q, ρ, h => by cases h; exact Cong.refl m _
  | (x, e) :: prog, p, q, ρ, h => by
    simp only [wp, Option.bind_eq_some_iff] at h
    obtain ⟨p', hp', h⟩ := h
    refine (wp_sound m prog p p' (ρ.set x (e.exact ρ)) hp').trans ?_
    exact subst_eval m ρ x _ (e.poly m) (fun q' hq' => poly_eval m ρ e q' hq') p' q h

end Verif.Limb

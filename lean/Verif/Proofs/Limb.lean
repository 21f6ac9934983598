import Verif.Model.Limb
/-
Two verified analyses of limb programs.
* `bounds`: interval analysis.  When it succeeds no operation of the program overflows, so the machine result is the
  exact integer result (`exact`), and the results lie in the computed intervals.
* `wp`: pulls a polynomial (of degree at most two in the variables) over the final values back to one over the initial values, modulo `m`.
Both are evaluated by the kernel on the concrete programs.
-/
namespace Verif.Limb

/-! ### Exact semantics -/

def Ex.const? : Ex → Option Int
  | .k n => some n
  | _ => none

/-- Number of low bits known to be zero. -/
def Ex.low : Ex → Nat
  | .shl _ _ n => n
  | _ => 0

/-- The integer an expression denotes when nothing overflows: `&` with a mask is a remainder, `|` a sum. -/
def Ex.exact (ρ : Env) : Ex → Int
  | .v x => ρ x
  | .k n => n
  | .add _ a b => a.exact ρ + b.exact ρ
  | .sub _ a b => a.exact ρ - b.exact ρ
  | .mul _ a b => a.exact ρ * b.exact ρ
  | .neg _ a => - a.exact ρ
  | .and _ a b =>
    match a.const?, b.const? with
    | some m, _ => b.exact ρ % (m + 1)
    | none, some m => a.exact ρ % (m + 1)
    | none, none => 0
  | .or _ a b => a.exact ρ + b.exact ρ
  | .shl _ a n => a.exact ρ * 2 ^ n
  | .shr a n => a.exact ρ / 2 ^ n
  | .cast _ a => a.exact ρ

def runExact : Prog → Env → Env
  | [], ρ => ρ
  | (x, e) :: p, ρ => runExact p (ρ.set x (e.exact ρ))

/-! ### Intervals -/

abbrev Itv := Int × Int
abbrev Bd := List (Nat × Itv)

def Bd.get : Bd → Nat → Option Itv
  | [], _ => none
  | (y, i) :: r, x => bif Nat.beq y x then some i else Bd.get r x

def Bd.put : Bd → Nat → Itv → Bd
  | [], x, i => [(x, i)]
  | (y, j) :: r, x, i => bif Nat.beq y x then (y, i) :: r else (y, j) :: Bd.put r x i

/-- Keep the interval when it fits the type. -/
def Wd.chk (w : Wd) (i : Itv) : Option Itv :=
  if w.lo ≤ i.1 ∧ i.2 ≤ w.hi then some i else none

def imul (a b : Itv) : Itv :=
  (min (min (a.1 * b.1) (a.1 * b.2)) (min (a.2 * b.1) (a.2 * b.2)),
   max (max (a.1 * b.1) (a.1 * b.2)) (max (a.2 * b.1) (a.2 * b.2)))

/-- Mask constants `2 ^ n - 1`, as the exponent. -/
def maskBits (m : Int) : Option Nat :=
  let n := (m.toNat + 1).log2
  if m = 2 ^ n - 1 ∧ n ≤ 31 then some n else none

def andItv (w : Wd) (m : Int) (j : Itv) : Option Itv :=
  if w = .w64 ∧ 0 ≤ j.1 ∧ j.2 ≤ Wd.w64.hi then (maskBits m).map fun _ => (0, m) else none

def Ex.itv (b : Bd) : Ex → Option Itv
  | .v x => b.get x
  | .k n => some (n, n)
  | .add w x y => (x.itv b).bind fun i => (y.itv b).bind fun j => w.chk (i.1 + j.1, i.2 + j.2)
  | .sub w x y => (x.itv b).bind fun i => (y.itv b).bind fun j => w.chk (i.1 - j.2, i.2 - j.1)
  | .mul w x y => (x.itv b).bind fun i => (y.itv b).bind fun j => w.chk (imul i j)
  | .neg w x => (x.itv b).bind fun i => w.chk (- i.2, - i.1)
  | .and w x y =>
    match x.const?, y.const? with
    | some m, _ => (y.itv b).bind (andItv w m)
    | none, some m => (x.itv b).bind (andItv w m)
    | none, none => none
  | .or w x y => (x.itv b).bind fun i => (y.itv b).bind fun j =>
      if w = .w64 ∧ 0 ≤ i.1 ∧ i.2 < 2 ^ y.low ∧ 0 ≤ j.1 ∧ j.2 ≤ Wd.w64.hi then Wd.w64.chk (i.1 + j.1, i.2 + j.2) else none
  | .shl w x n => (x.itv b).bind fun i => w.chk (i.1 * 2 ^ n, i.2 * 2 ^ n)
  | .shr x n => (x.itv b).map fun i => (i.1 / 2 ^ n, i.2 / 2 ^ n)
  | .cast w x => (x.itv b).bind w.chk

/-- A remembered carry: variable `c` holds `(h + bias) >> n`. -/
structure Fact where
  c : Nat
  h : Nat
  bias : Int
  n : Nat

def Fact.ok (f : Fact) (ρ : Env) : Prop := ρ f.c = (ρ f.h + f.bias) / 2 ^ f.n

/-- The fact established by an assignment. -/
def newFact (x : Nat) : Ex → Option Fact
  | .shr (.v h) n => bif Nat.beq x h then none else some ⟨x, h, 0, n⟩
  | .shr (.add _ (.v h) (.k bias)) n => bif Nat.beq x h then none else some ⟨x, h, bias, n⟩
  | _ => none

def Fact.avoids (x : Nat) (f : Fact) : Bool := !(Nat.beq f.c x) && !(Nat.beq f.h x)

/-- `x := x - (c << n)` after `c := (x + bias) >> n`. -/
def carryItv (fs : List Fact) (x : Nat) : Ex → Option Itv
  | .sub _ (.v y) (.shl _ (.v c) n) =>
    bif Nat.beq x y then
      match fs.find? (fun f => Nat.beq f.c c && Nat.beq f.h x && Nat.beq f.n n) with
      | some f => some (- f.bias, 2 ^ n - 1 - f.bias)
      | none => none
    else none
  | _ => none

/-- Interval analysis of a program. -/
def bounds : Prog → Bd → List Fact → Option Bd
  | [], b, _ => some b
  | (x, e) :: p, b, fs =>
    match e.itv b with
    | none => none
    | some i =>
      let i' := (carryItv fs x e).getD i
      let fs' := fs.filter (Fact.avoids x)
      bounds p (b.put x i') (match newFact x e with | some f => f :: fs' | none => fs')

def Itv.has (i : Itv) (n : Int) : Prop := i.1 ≤ n ∧ n ≤ i.2
def Bd.ok (b : Bd) (ρ : Env) : Prop := ∀ x i, b.get x = some i → i.1 ≤ ρ x ∧ ρ x ≤ i.2

/-! ### Soundness -/

theorem wrap_id (w : Wd) (n : Int) (h1 : w.lo ≤ n) (h2 : n ≤ w.hi) : w.wrap n = n := by
  cases w
  · simp only [Wd.lo, Wd.hi] at h1 h2; simp only [Wd.wrap]; omega
  · simp only [Wd.lo, Wd.hi] at h1 h2; simp only [Wd.wrap]
    apply Int.bmod_eq_of_le <;> omega
  · simp only [Wd.lo, Wd.hi] at h1 h2; simp only [Wd.wrap]
    apply Int.bmod_eq_of_le <;> omega

theorem chk_some {w : Wd} {i j : Itv} (h : w.chk i = some j) : j = i ∧ w.lo ≤ i.1 ∧ i.2 ≤ w.hi := by
  unfold Wd.chk at h
  split at h
  · rename_i hh; cases h; exact ⟨rfl, hh.1, hh.2⟩
  · cases h

theorem beqF {x y : Nat} (h : ¬ x = y) : Nat.beq x y = false := by
  cases e : Nat.beq x y
  · rfl
  · exact absurd (Nat.eq_of_beq_eq_true e) h

theorem Bd.get_put (b : Bd) (x y : Nat) (i : Itv) :
    (b.put x i).get y = if y = x then some i else b.get y := by
  induction b with
  | nil =>
    simp only [Bd.put, Bd.get]
    by_cases h : x = y
    · subst h; simp
    · have : ¬ y = x := fun e => h e.symm
      simp [this, beqF h]
  | cons p r ih =>
    obtain ⟨z, j⟩ := p
    simp only [Bd.put]
    by_cases h : z = x
    · subst h
      simp only [Nat.beq_refl, cond_true, Bd.get]
      by_cases h2 : z = y
      · subst h2; simp
      · have h3 : ¬ y = z := fun e => h2 e.symm
        have : Nat.beq z y = false := beqF h2
        simp [this, h3]
    · have hz : Nat.beq z x = false := beqF h
      simp only [hz, cond_false, Bd.get]
      by_cases h2 : z = y
      · subst h2; simp [h]
      · have : Nat.beq z y = false := beqF h2
        simp only [this, cond_false, ih]

theorem imul_has {a b : Itv} {m n : Int} (h1 : a.1 ≤ m) (h2 : m ≤ a.2) (h3 : b.1 ≤ n) (h4 : n ≤ b.2) :
    (imul a b).1 ≤ m * n ∧ m * n ≤ (imul a b).2 := by
  obtain ⟨p, q⟩ := a
  obtain ⟨r, s⟩ := b
  simp only [imul] at *
  have key1 : min (p * n) (q * n) ≤ m * n ∧ m * n ≤ max (p * n) (q * n) := by
    by_cases hn : 0 ≤ n
    · have e1 := Int.mul_le_mul_of_nonneg_right h1 hn
      have e2 := Int.mul_le_mul_of_nonneg_right h2 hn
      omega
    · have e1 := Int.mul_le_mul_of_nonpos_right h1 (by omega : n ≤ 0)
      have e2 := Int.mul_le_mul_of_nonpos_right h2 (by omega : n ≤ 0)
      omega
  have key2 : ∀ t : Int, min (t * r) (t * s) ≤ t * n ∧ t * n ≤ max (t * r) (t * s) := by
    intro t
    by_cases ht : 0 ≤ t
    · have e1 := Int.mul_le_mul_of_nonneg_left h3 ht
      have e2 := Int.mul_le_mul_of_nonneg_left h4 ht
      omega
    · have e1 := Int.mul_le_mul_of_nonpos_left (by omega : t ≤ 0) h3
      have e2 := Int.mul_le_mul_of_nonpos_left (by omega : t ≤ 0) h4
      omega
  have a1 := key2 p
  have a2 := key2 q
  omega

theorem mask_eq (n : Nat) (hn : n ≤ 31) (y : Int) (h0 : 0 ≤ y) (h1 : y ≤ Wd.w64.hi) :
    Wd.w64.wrap (BitVec.ofInt 64 y &&& BitVec.ofInt 64 (2 ^ n - 1)).toNat = y % (2 ^ n - 1 + 1) := by
  obtain ⟨k, rfl⟩ := Int.eq_ofNat_of_zero_le h0
  have hk : k < 2 ^ 63 := by simp only [Wd.hi] at h1; omega
  have hpn : 2 ^ n ≤ 2 ^ 31 := Nat.pow_le_pow_right (by omega) hn
  have hpos : 0 < 2 ^ n := Nat.two_pow_pos n
  have e1 : BitVec.ofInt 64 (k : Int) = BitVec.ofNat 64 k := by simp
  have e2 : BitVec.ofInt 64 ((2 : Int) ^ n - 1) = BitVec.ofNat 64 (2 ^ n - 1) := by
    have : ((2 : Int) ^ n - 1) = ((2 ^ n - 1 : Nat) : Int) := by
      rw [Int.natCast_sub hpos]; simp
    rw [this]; simp
  rw [e1, e2, BitVec.toNat_and, BitVec.toNat_ofNat, BitVec.toNat_ofNat, Nat.mod_eq_of_lt (by omega),
    Nat.mod_eq_of_lt (by omega), Nat.and_two_pow_sub_one_eq_mod]
  have hm : k % 2 ^ n < 2 ^ n := Nat.mod_lt _ hpos
  rw [wrap_id]
  · rw [Int.sub_add_cancel]; simp
  · simp only [Wd.lo]; omega
  · simp only [Wd.hi]; omega

theorem or_eq (n : Nat) (x y : Int) (hx : 0 ≤ x) (hx2 : x < 2 ^ n) (hy : 0 ≤ y) (hy2 : y * 2 ^ n ≤ Wd.w64.hi)
    (h : x + y * 2 ^ n ≤ Wd.w64.hi) :
    Wd.w64.wrap (BitVec.ofInt 64 x ||| BitVec.ofInt 64 (y * 2 ^ n)).toNat = x + y * 2 ^ n := by
  obtain ⟨a, rfl⟩ := Int.eq_ofNat_of_zero_le hx
  obtain ⟨c, rfl⟩ := Int.eq_ofNat_of_zero_le hy
  have ha : a < 2 ^ n := by
    have : ((2 : Int) ^ n) = ((2 ^ n : Nat) : Int) := by simp
    rw [this] at hx2; exact_mod_cast hx2
  have e0 : ((c : Int) * 2 ^ n) = ((c * 2 ^ n : Nat) : Int) := by simp
  rw [e0] at hy2 h ⊢
  have hc : c * 2 ^ n < 2 ^ 63 := by simp only [Wd.hi] at hy2; omega
  have hs : a + c * 2 ^ n < 2 ^ 63 := by simp only [Wd.hi] at h; omega
  have e1 : BitVec.ofInt 64 (a : Int) = BitVec.ofNat 64 a := by simp
  have e2 : BitVec.ofInt 64 ((c * 2 ^ n : Nat) : Int) = BitVec.ofNat 64 (c * 2 ^ n) := by
    rw [BitVec.ofInt_natCast]
  rw [e1, e2, BitVec.toNat_or, BitVec.toNat_ofNat, BitVec.toNat_ofNat, Nat.mod_eq_of_lt (by omega),
    Nat.mod_eq_of_lt (by omega)]
  have e3 : a ||| c * 2 ^ n = a + c * 2 ^ n := by
    rw [Nat.or_comm, Nat.mul_comm, ← Nat.two_pow_add_eq_or_of_lt ha, Nat.add_comm]
  rw [e3, wrap_id]
  · simp
  · simp only [Wd.lo]; omega
  · exact h

theorem maskBits_some {m : Int} {n : Nat} (h : maskBits m = some n) : m = 2 ^ n - 1 ∧ n ≤ 31 := by
  unfold maskBits at h
  simp only at h
  split at h
  · rename_i hh; cases h; exact hh
  · cases h

/-- Bounds are sound for expressions: no overflow, exact value, value in the interval. -/
theorem itv_sound (b : Bd) (ρ : Env) (hb : b.ok ρ) : ∀ (e : Ex) (i : Itv), e.itv b = some i →
    e.eval ρ = e.exact ρ ∧ i.1 ≤ e.exact ρ ∧ e.exact ρ ≤ i.2 := by
  intro e
  induction e with
  | v x => intro i h; exact ⟨rfl, hb x i h⟩
  | k n => intro i h; cases h; exact ⟨rfl, Int.le_refl _, Int.le_refl _⟩
  | add w x y ihx ihy =>
    intro i h
    simp only [Ex.itv, Option.bind_eq_some_iff] at h
    obtain ⟨p, hp, q, hq, h⟩ := h
    obtain ⟨rfl, c1, c2⟩ := chk_some h
    obtain ⟨ex, lx, ux⟩ := ihx p hp
    obtain ⟨ey, ly, uy⟩ := ihy q hq
    simp only [Ex.eval, Ex.exact, ex, ey]
    refine ⟨wrap_id _ _ ?_ ?_, ?_, ?_⟩ <;> simp only at * <;> omega
  | sub w x y ihx ihy =>
    intro i h
    simp only [Ex.itv, Option.bind_eq_some_iff] at h
    obtain ⟨p, hp, q, hq, h⟩ := h
    obtain ⟨rfl, c1, c2⟩ := chk_some h
    obtain ⟨ex, lx, ux⟩ := ihx p hp
    obtain ⟨ey, ly, uy⟩ := ihy q hq
    simp only [Ex.eval, Ex.exact, ex, ey]
    refine ⟨wrap_id _ _ ?_ ?_, ?_, ?_⟩ <;> simp only at * <;> omega
  | mul w x y ihx ihy =>
    intro i h
    simp only [Ex.itv, Option.bind_eq_some_iff] at h
    obtain ⟨p, hp, q, hq, h⟩ := h
    obtain ⟨rfl, c1, c2⟩ := chk_some h
    obtain ⟨ex, lx, ux⟩ := ihx p hp
    obtain ⟨ey, ly, uy⟩ := ihy q hq
    simp only [Ex.eval, Ex.exact, ex, ey]
    have := imul_has lx ux ly uy
    exact ⟨wrap_id _ _ (by omega) (by omega), this⟩
  | neg w x ihx =>
    intro i h
    simp only [Ex.itv, Option.bind_eq_some_iff] at h
    obtain ⟨p, hp, h⟩ := h
    obtain ⟨rfl, c1, c2⟩ := chk_some h
    obtain ⟨ex, lx, ux⟩ := ihx p hp
    simp only [Ex.eval, Ex.exact, ex]
    refine ⟨wrap_id _ _ ?_ ?_, ?_, ?_⟩ <;> simp only at * <;> omega
  | shl w x n ihx =>
    intro i h
    simp only [Ex.itv, Option.bind_eq_some_iff] at h
    obtain ⟨p, hp, h⟩ := h
    obtain ⟨rfl, c1, c2⟩ := chk_some h
    obtain ⟨ex, lx, ux⟩ := ihx p hp
    have hp2 : (0 : Int) ≤ 2 ^ n := Int.pow_nonneg (by omega)
    have e1 := Int.mul_le_mul_of_nonneg_right lx hp2
    have e2 := Int.mul_le_mul_of_nonneg_right ux hp2
    simp only [Ex.eval, Ex.exact, ex]
    refine ⟨wrap_id _ _ ?_ ?_, ?_, ?_⟩ <;> simp only at * <;> omega
  | shr x n ihx =>
    intro i h
    simp only [Ex.itv, Option.map_eq_some_iff] at h
    obtain ⟨p, hp, rfl⟩ := h
    obtain ⟨ex, lx, ux⟩ := ihx p hp
    have hp2 : (0 : Int) < 2 ^ n := Int.pow_pos (by omega)
    simp only [Ex.eval, Ex.exact, ex]
    exact ⟨trivial, Int.ediv_le_ediv hp2 lx, Int.ediv_le_ediv hp2 ux⟩
  | cast w x ihx =>
    intro i h
    simp only [Ex.itv, Option.bind_eq_some_iff] at h
    obtain ⟨p, hp, h⟩ := h
    obtain ⟨rfl, c1, c2⟩ := chk_some h
    obtain ⟨ex, lx, ux⟩ := ihx i hp
    simp only [Ex.eval, Ex.exact, ex]
    exact ⟨wrap_id _ _ (by omega) (by omega), lx, ux⟩
  | and w x y ihx ihy =>
    intro i h
    have fin : ∀ (z : Ex) (m : Int), (∀ i, z.itv b = some i → z.eval ρ = z.exact ρ ∧ i.1 ≤ z.exact ρ ∧ z.exact ρ ≤ i.2) →
        (z.itv b).bind (andItv w m) = some i → w = .w64 ∧
        Wd.w64.wrap (BitVec.ofInt 64 (z.eval ρ) &&& BitVec.ofInt 64 m).toNat = z.exact ρ % (m + 1) ∧
        i.1 ≤ z.exact ρ % (m + 1) ∧ z.exact ρ % (m + 1) ≤ i.2 := by
      intro z m ih h
      simp only [Option.bind_eq_some_iff, andItv] at h
      obtain ⟨p, hp, h⟩ := h
      split at h
      · rename_i hc
        simp only [Option.map_eq_some_iff] at h
        obtain ⟨n, hn, rfl⟩ := h
        obtain ⟨rfl, hn31⟩ := maskBits_some hn
        obtain ⟨ez, lz, uz⟩ := ih p hp
        rw [ez, mask_eq n hn31 _ (by omega) (by omega)]
        have hp2 : (0 : Int) < 2 ^ n := Int.pow_pos (by omega)
        rw [Int.sub_add_cancel]
        have h1 := Int.emod_nonneg (z.exact ρ) (by omega : (2 : Int) ^ n ≠ 0)
        have h2 := Int.emod_lt_of_pos (z.exact ρ) hp2
        exact ⟨hc.1, rfl, h1, by simp only; omega⟩
      · cases h
    have ek : ∀ (z : Ex) (m : Int), z.const? = some m → z = .k m := by
      intro z m hz; cases z <;> simp_all [Ex.const?]
    simp only [Ex.itv] at h
    simp only [Ex.exact, Ex.eval]
    cases hx : x.const? with
    | some m =>
      rw [hx] at h
      obtain ⟨rfl, f1, f2⟩ := fin y m ihy h
      rw [ek x m hx]
      have ec : BitVec.ofInt 64 m &&& BitVec.ofInt 64 (y.eval ρ) = BitVec.ofInt 64 (y.eval ρ) &&& BitVec.ofInt 64 m :=
        BitVec.and_comm _ _
      refine ⟨?_, f2⟩
      rw [← ec] at f1
      exact f1
    | none =>
      cases hy : y.const? with
      | none => rw [hx, hy] at h; cases h
      | some m =>
        rw [hx, hy] at h
        obtain ⟨rfl, f1, f2⟩ := fin x m ihx h
        rw [ek y m hy]
        exact ⟨f1, f2⟩
  | or w x y ihx ihy =>
    intro i h
    simp only [Ex.itv, Option.bind_eq_some_iff] at h
    obtain ⟨p, hp, q, hq, h⟩ := h
    split at h
    · rename_i hc
      obtain ⟨rfl, c1, c2, c3, c4⟩ := hc
      obtain ⟨rfl, d1, d2⟩ := chk_some h
      obtain ⟨ex, lx, ux⟩ := ihx p hp
      obtain ⟨ey, ly, uy⟩ := ihy q hq
      have hlow : ∃ t, y.exact ρ = t * 2 ^ y.low := by
        cases y <;> first | exact ⟨_, rfl⟩ | exact ⟨_, (Int.mul_one _).symm⟩
      obtain ⟨t, ht⟩ := hlow
      have hp2 : (0 : Int) < 2 ^ y.low := Int.pow_pos (by omega)
      have ht0 : 0 ≤ t := by
        by_cases h0 : 0 ≤ t
        · exact h0
        · have := Int.mul_neg_of_neg_of_pos (by omega : t < 0) hp2
          omega
      simp only [Ex.eval, Ex.exact, ex, ey, Wd.bits]
      simp only at d1 d2
      refine ⟨?_, by omega, by omega⟩
      rw [ht]
      exact or_eq _ _ _ (by omega) (by omega) ht0 (by omega) (by omega)
    · cases h

theorem itv_safe (b : Bd) (ρ : Env) (hb : b.ok ρ) : ∀ (e : Ex) (i : Itv), e.itv b = some i → e.safe ρ := by
  intro e
  induction e with
  | v x => intro i h; trivial
  | k n => intro i h; trivial
  | add w x y ihx ihy =>
    intro i h
    simp only [Ex.itv, Option.bind_eq_some_iff] at h
    obtain ⟨p, hp, q, hq, h⟩ := h
    obtain ⟨rfl, c1, c2⟩ := chk_some h
    obtain ⟨ex, lx, ux⟩ := itv_sound b ρ hb x p hp
    obtain ⟨ey, ly, uy⟩ := itv_sound b ρ hb y q hq
    refine ⟨ihx p hp, ihy q hq, ?_, ?_⟩ <;> rw [ex, ey] <;> simp only at * <;> omega
  | sub w x y ihx ihy =>
    intro i h
    simp only [Ex.itv, Option.bind_eq_some_iff] at h
    obtain ⟨p, hp, q, hq, h⟩ := h
    obtain ⟨rfl, c1, c2⟩ := chk_some h
    obtain ⟨ex, lx, ux⟩ := itv_sound b ρ hb x p hp
    obtain ⟨ey, ly, uy⟩ := itv_sound b ρ hb y q hq
    refine ⟨ihx p hp, ihy q hq, ?_, ?_⟩ <;> rw [ex, ey] <;> simp only at * <;> omega
  | mul w x y ihx ihy =>
    intro i h
    simp only [Ex.itv, Option.bind_eq_some_iff] at h
    obtain ⟨p, hp, q, hq, h⟩ := h
    obtain ⟨rfl, c1, c2⟩ := chk_some h
    obtain ⟨ex, lx, ux⟩ := itv_sound b ρ hb x p hp
    obtain ⟨ey, ly, uy⟩ := itv_sound b ρ hb y q hq
    have := imul_has lx ux ly uy
    refine ⟨ihx p hp, ihy q hq, ?_, ?_⟩ <;> rw [ex, ey] <;> omega
  | neg w x ihx =>
    intro i h
    simp only [Ex.itv, Option.bind_eq_some_iff] at h
    obtain ⟨p, hp, h⟩ := h
    obtain ⟨rfl, c1, c2⟩ := chk_some h
    obtain ⟨ex, lx, ux⟩ := itv_sound b ρ hb x p hp
    refine ⟨ihx p hp, ?_, ?_⟩ <;> rw [ex] <;> simp only at * <;> omega
  | shl w x n ihx =>
    intro i h
    have h' := h
    simp only [Ex.itv, Option.bind_eq_some_iff] at h'
    obtain ⟨p, hp, h'⟩ := h'
    obtain ⟨rfl, c1, c2⟩ := chk_some h'
    obtain ⟨ex, lx, ux⟩ := itv_sound b ρ hb x p hp
    obtain ⟨_, l2, u2⟩ := itv_sound b ρ hb (.shl w x n) _ h
    simp only [Ex.exact] at l2 u2
    refine ⟨ihx p hp, ?_, ?_⟩ <;> rw [ex] <;> omega
  | shr x n ihx =>
    intro i h
    simp only [Ex.itv, Option.map_eq_some_iff] at h
    obtain ⟨p, hp, rfl⟩ := h
    exact ihx p hp
  | cast w x ihx =>
    intro i h
    simp only [Ex.itv, Option.bind_eq_some_iff] at h
    obtain ⟨p, hp, h⟩ := h
    obtain ⟨rfl, c1, c2⟩ := chk_some h
    obtain ⟨ex, lx, ux⟩ := itv_sound b ρ hb x i hp
    exact ⟨ihx i hp, by rw [ex]; omega, by rw [ex]; omega⟩
  | and w x y ihx ihy =>
    intro i h
    have ek : ∀ (z : Ex) (m : Int), z.const? = some m → z.safe ρ := by
      intro z m hz; cases z <;> first | trivial | cases hz
    simp only [Ex.itv] at h
    cases hx : x.const? with
    | some m =>
      rw [hx] at h
      simp only [Option.bind_eq_some_iff] at h
      obtain ⟨p, hp, _⟩ := h
      exact ⟨ek x m hx, ihy p hp⟩
    | none =>
      cases hy : y.const? with
      | none => rw [hx, hy] at h; cases h
      | some m =>
        rw [hx, hy] at h
        simp only [Option.bind_eq_some_iff] at h
        obtain ⟨p, hp, _⟩ := h
        exact ⟨ihx p hp, ek y m hy⟩
  | or w x y ihx ihy =>
    intro i h
    simp only [Ex.itv, Option.bind_eq_some_iff] at h
    obtain ⟨p, hp, q, hq, h⟩ := h
    exact ⟨ihx p hp, ihy q hq⟩

theorem carryItv_sound (fs : List Fact) (ρ : Env) (hf : ∀ f ∈ fs, f.ok ρ) (x : Nat) (e : Ex) (i : Itv)
    (h : carryItv fs x e = some i) : i.1 ≤ e.exact ρ ∧ e.exact ρ ≤ i.2 := by
  unfold carryItv at h
  split at h
  · rename_i y w' c n
    cases hxy : Nat.beq x y with
    | false => rw [hxy] at h; cases h
    | true =>
      have hxy := Nat.eq_of_beq_eq_true hxy
      subst hxy
      rw [Nat.beq_refl] at h
      simp only [cond_true] at h
      split at h
      · rename_i f hfind
        cases h
        have hm := List.mem_of_find?_eq_some hfind
        have hp := List.find?_some hfind
        simp only [Bool.and_eq_true] at hp
        have e1 := Nat.eq_of_beq_eq_true hp.1.1
        have e2 := Nat.eq_of_beq_eq_true hp.1.2
        have e3 := Nat.eq_of_beq_eq_true hp.2
        have := hf f hm
        unfold Fact.ok at this
        rw [e1, e2, e3] at this
        simp only [Ex.exact, this]
        have hp2 : (0 : Int) < 2 ^ n := Int.pow_pos (by omega)
        have a1 := Int.emod_nonneg (ρ x + f.bias) (by omega : (2 : Int) ^ n ≠ 0)
        have a2 := Int.emod_lt_of_pos (ρ x + f.bias) hp2
        have a3 := Int.mul_ediv_add_emod (ρ x + f.bias) (2 ^ n)
        rw [Int.mul_comm] at a3
        omega
      · cases h
  · cases h

theorem newFact_sound (x : Nat) (e : Ex) (f : Fact) (ρ : Env) (h : newFact x e = some f) :
    f.ok (ρ.set x (e.exact ρ)) := by
  unfold newFact at h
  split at h
  · rename_i h' n
    cases hxy : Nat.beq x h' with
    | true => rw [hxy] at h; cases h
    | false =>
      rw [hxy] at h; cases h
      have hne : h' ≠ x := by intro e; subst e; rw [Nat.beq_refl] at hxy; cases hxy
      simp [Fact.ok, Env.set, hne, Ex.exact]
  · rename_i w h' bias n
    cases hxy : Nat.beq x h' with
    | true => rw [hxy] at h; cases h
    | false =>
      rw [hxy] at h; cases h
      have hne : h' ≠ x := by intro e; subst e; rw [Nat.beq_refl] at hxy; cases hxy
      simp [Fact.ok, Env.set, hne, Ex.exact]
  · cases h

/-- Interval analysis is sound: when it succeeds the machine computes the exact integers, which lie in the intervals. -/
theorem bounds_sound : ∀ (p : Prog) (b : Bd) (fs : List Fact) (ρ : Env) (b' : Bd), b.ok ρ → (∀ f ∈ fs, f.ok ρ) →
    bounds p b fs = some b' → run p ρ = runExact p ρ ∧ b'.ok (run p ρ) ∧ safeRun p ρ
  | [], b, fs, ρ, b', hb, _, h => by
    cases h; exact ⟨rfl, hb, trivial⟩
  | (x, e) :: p, b, fs, ρ, b', hb, hf, h => by
    simp only [bounds] at h
    cases hi : e.itv b with
    | none => rw [hi] at h; cases h
    | some i =>
      rw [hi] at h
      simp only at h
      obtain ⟨ee, el, eu⟩ := itv_sound b ρ hb e i hi
      have hi' : ((carryItv fs x e).getD i).1 ≤ e.exact ρ ∧ e.exact ρ ≤ ((carryItv fs x e).getD i).2 := by
        cases hc : carryItv fs x e with
        | none => exact ⟨el, eu⟩
        | some j => exact carryItv_sound fs ρ hf x e j hc
      have hfs : ∀ f ∈ fs.filter (Fact.avoids x), f.ok (ρ.set x (e.exact ρ)) := by
        intro f hm
        obtain ⟨hm1, hm2⟩ := List.mem_filter.1 hm
        simp only [Fact.avoids, Bool.and_eq_true, Bool.not_eq_true'] at hm2
        have n1 : f.c ≠ x := by intro e; rw [e, Nat.beq_refl] at hm2; cases hm2.1
        have n2 : f.h ≠ x := by intro e; rw [e, Nat.beq_refl] at hm2; cases hm2.2
        have := hf f hm1
        simpa [Fact.ok, Env.set, n1, n2] using this
      have ih := bounds_sound p (b.put x ((carryItv fs x e).getD i)) _ (ρ.set x (e.exact ρ)) b' ?_ ?_ h
      · simp only [run, runExact, safeRun, ee]; exact ⟨ih.1, ih.2.1, itv_safe b ρ hb e i hi, ih.2.2⟩
      · intro y j hy
        rw [Bd.get_put] at hy
        by_cases hyx : y = x
        · subst hyx
          rw [if_pos rfl] at hy; cases hy
          simp only [Env.set, if_pos]; exact hi'
        · rw [if_neg hyx] at hy
          simp only [Env.set, if_neg hyx]; exact hb y j hy
      · intro f hm
        split at hm
        · rename_i g hg
          rcases List.mem_cons.1 hm with rfl | hm
          · exact newFact_sound x e _ ρ hg
          · exact hfs f hm
        · exact hfs f hm

end Verif.Limb

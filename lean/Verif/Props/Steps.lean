import Verif.Model.Steps
/-
C106: signing and checking a MAC take the same steps whatever the secrets are.
-/
namespace Verif.Steps
theorem bind_val {α β : Type} (x : Timed α) (f : α → Timed β) : (x >>= f).val = (f x.val).val := rfl
theorem bind_steps {α β : Type} (x : Timed α) (f : α → Timed β) : (x >>= f).steps = x.steps ++ (f x.val).steps := rfl
theorem pure_val {α : Type} (a : α) : (pure a : Timed α).val = a := rfl
theorem pure_steps {α : Type} (a : α) : (pure a : Timed α).steps = [] := rfl
theorem tick_steps (s : Step) : (tick s).steps = [s] := rfl
theorem cond_val {α : Type} (c : Bool) (t e : Timed α) : (cond c t e).val = if c then t.val else e.val := by cases c <;> rfl
theorem cond_steps {α : Type} (c : Bool) (t e : Timed α) : (cond c t e).steps = .branch c :: if c then t.steps else e.steps := by cases c <;> rfl
/-- Values, one statement at a time. -/
theorem bind_let {α β : Type} {x : Timed α} {v : α} {f : α → Timed β} {g : α → β} (hx : x.val = v) (h : ∀ a, (f a).val = g a) : (x >>= f).val = (let a := v; g a) := by
  subst hx; exact h _
/-- Steps, one statement at a time. -/
theorem bind_same {α α' β β' : Type} {x : Timed α} {y : Timed α'} {f : α → Timed β} {g : α' → Timed β'} (hx : x.steps = y.steps) (h : ∀ a b, (f a).steps = (g b).steps) :
    (x >>= f).steps = (y >>= g).steps := by
  rw [bind_steps, bind_steps, hx, h]
theorem bind_same' {α α' β β' : Type} {x : Timed α} {y : Timed α'} {f : α → Timed β} {g : α' → Timed β'} (hx : x.steps = y.steps) (h : (f x.val).steps = (g y.val).steps) :
    (x >>= f).steps = (y >>= g).steps := by
  rw [bind_steps, bind_steps, hx, h]
end Verif.Steps

namespace Verif.Limb
open Verif.Steps

/-- The steps of a sequence of assignments. -/
def progSteps (p : Prog) : List Step := p.flatMap fun xe => [.index "limbs" xe.2.vars, .index "limbs" [xe.1]]

theorem tRun_val (p : Prog) (ρ : Env) : (tRun p ρ).val = run p ρ := by
  induction p generalizing ρ with
  | nil => rfl
  | cons xe p ih => exact ih _

theorem tRun_steps (p : Prog) (ρ : Env) : (tRun p ρ).steps = progSteps p := by
  induction p generalizing ρ with
  | nil => rfl
  | cons xe p ih =>
    show [Step.index "limbs" xe.2.vars] ++ ([Step.index "limbs" [xe.1]] ++ (tRun p (ρ.set xe.1 (xe.2.eval ρ))).steps) = _
    rw [ih]; rfl

theorem tFeAdd_val (a b : Fe) : (tFeAdd a b).val = feAdd a b := by simp only [tFeAdd, feAdd, bind_val, pure_val, tRun_val]
theorem tFeSub_val (a b : Fe) : (tFeSub a b).val = feSub a b := by simp only [tFeSub, feSub, bind_val, pure_val, tRun_val]
theorem tFeNeg_val (a : Fe) : (tFeNeg a).val = feNeg a := by simp only [tFeNeg, feNeg, bind_val, pure_val, tRun_val]
theorem tFeMul_val (a b : Fe) : (tFeMul a b).val = feMul a b := by simp only [tFeMul, feMul, bind_val, pure_val, tRun_val]
theorem tFeSquare_val (a : Fe) : (tFeSquare a).val = feSquare a := by simp only [tFeSquare, feSquare, bind_val, pure_val, tRun_val]
theorem tFeSquare2_val (a : Fe) : (tFeSquare2 a).val = feSquare2 a := by simp only [tFeSquare2, feSquare2, bind_val, pure_val, tRun_val]
theorem tFeToBytes_val (a : Fe) : (tFeToBytes a).val = feToBytes a := by simp only [tFeToBytes, feToBytes, bind_val, pure_val, tRun_val]
theorem tFeIsNegative_val (a : Fe) : (tFeIsNegative a).val = feIsNegative a := by simp only [tFeIsNegative, feIsNegative, bind_val, pure_val, tFeToBytes_val]
theorem tFeCopy_val (a : Fe) : (tFeCopy a).val = a := rfl
theorem tFeZero_val : tFeZero.val = feZero := rfl
theorem tFeOne_val : tFeOne.val = feOne := rfl
theorem tSqN_val (n : Nat) (t : Fe) : (tSqN n t).val = sqN n t := by
  induction n generalizing t with
  | zero => rfl
  | succ n ih => simp only [tSqN, sqN, bind_val, tFeSquare_val, ih]
theorem tFeInvert_val (z : Fe) : (tFeInvert z).val = feInvert z := by
  unfold tFeInvert feInvert
  extract_lets a0 a1 a2 a3 a4 a5 a6 a7 a8 a9 a10 a11 a12 a13 a14 a15 a16 a17 a18 a19 a20 a21 a22 a23 a24 a25 a26 a27 a28 a29
  have e0 : feSquare z = a0 := rfl
  have e1 : feSquare a0 = a1 := rfl
  have e2 : sqN 1 a1 = a2 := rfl
  have e3 : feMul z a2 = a3 := rfl
  have e4 : feMul a0 a3 = a4 := rfl
  have e5 : feSquare a4 = a5 := rfl
  have e6 : feMul a3 a5 = a6 := rfl
  have e7 : feSquare a6 = a7 := rfl
  have e8 : sqN 4 a7 = a8 := rfl
  have e9 : feMul a8 a6 = a9 := rfl
  have e10 : feSquare a9 = a10 := rfl
  have e11 : sqN 9 a10 = a11 := rfl
  have e12 : feMul a11 a9 = a12 := rfl
  have e13 : feSquare a12 = a13 := rfl
  have e14 : sqN 19 a13 = a14 := rfl
  have e15 : feMul a14 a12 = a15 := rfl
  have e16 : feSquare a15 = a16 := rfl
  have e17 : sqN 9 a16 = a17 := rfl
  have e18 : feMul a17 a9 = a18 := rfl
  have e19 : feSquare a18 = a19 := rfl
  have e20 : sqN 49 a19 = a20 := rfl
  have e21 : feMul a20 a18 = a21 := rfl
  have e22 : feSquare a21 = a22 := rfl
  have e23 : sqN 99 a22 = a23 := rfl
  have e24 : feMul a23 a21 = a24 := rfl
  have e25 : feSquare a24 = a25 := rfl
  have e26 : sqN 49 a25 = a26 := rfl
  have e27 : feMul a26 a18 = a27 := rfl
  have e28 : feSquare a27 = a28 := rfl
  have e29 : sqN 4 a28 = a29 := rfl
  clear_value a0 a1 a2 a3 a4 a5 a6 a7 a8 a9 a10 a11 a12 a13 a14 a15 a16 a17 a18 a19 a20 a21 a22 a23 a24 a25 a26 a27 a28 a29
  rw [bind_val, tFeSquare_val, e0]
  rw [bind_val, tFeSquare_val, e1]
  rw [bind_val, tSqN_val, e2]
  rw [bind_val, tFeMul_val, e3]
  rw [bind_val, tFeMul_val, e4]
  rw [bind_val, tFeSquare_val, e5]
  rw [bind_val, tFeMul_val, e6]
  rw [bind_val, tFeSquare_val, e7]
  rw [bind_val, tSqN_val, e8]
  rw [bind_val, tFeMul_val, e9]
  rw [bind_val, tFeSquare_val, e10]
  rw [bind_val, tSqN_val, e11]
  rw [bind_val, tFeMul_val, e12]
  rw [bind_val, tFeSquare_val, e13]
  rw [bind_val, tSqN_val, e14]
  rw [bind_val, tFeMul_val, e15]
  rw [bind_val, tFeSquare_val, e16]
  rw [bind_val, tSqN_val, e17]
  rw [bind_val, tFeMul_val, e18]
  rw [bind_val, tFeSquare_val, e19]
  rw [bind_val, tSqN_val, e20]
  rw [bind_val, tFeMul_val, e21]
  rw [bind_val, tFeSquare_val, e22]
  rw [bind_val, tSqN_val, e23]
  rw [bind_val, tFeMul_val, e24]
  rw [bind_val, tFeSquare_val, e25]
  rw [bind_val, tSqN_val, e26]
  rw [bind_val, tFeMul_val, e27]
  rw [bind_val, tFeSquare_val, e28]
  rw [bind_val, tSqN_val, e29]
  exact tFeMul_val _ _
theorem tFeCMove_val (f g : Fe) (b : Int) : (tFeCMove f g b).val = feCMove f g b := rfl
/-- Values, statement by statement. -/
macro "vals" : tactic => `(tactic| repeat (rw [bind_val]; try first | rw [tFeSquare_val] | rw [tFeSquare2_val] | rw [tFeMul_val] | rw [tFeAdd_val] | rw [tFeSub_val] | rw [tFeNeg_val] | rw [tFeToBytes_val] | rw [tFeIsNegative_val] | rw [tFeCopy_val] | rw [tFeZero_val] | rw [tFeOne_val] | rw [tFeInvert_val] | rw [tFeCMove_val]))
theorem tDouble_val (p : ProjectivePoint) : (tDouble p).val = p.double := by
  unfold tDouble ProjectivePoint.double
  vals
  rw [pure_val]
theorem tExtDouble_val (p : ExtendedPoint) : (tExtDouble p).val = p.double := by
  unfold tExtDouble ExtendedPoint.double
  rw [bind_val, tDouble_val]
  congr 1
theorem tToBytes_val (p : ExtendedPoint) : (tToBytes p).val = p.toBytes := by
  unfold tToBytes ExtendedPoint.toBytes
  vals
  rw [pure_val]
theorem tExtZero_val : tExtZero.val = ExtendedPoint.zero := rfl
theorem tToProjective_val (p : CompletedPoint) : (tToProjective p).val = p.toProjective := by
  unfold tToProjective CompletedPoint.toProjective
  vals
  rw [pure_val]
theorem tToExtended_val (p : CompletedPoint) : (tToExtended p).val = p.toExtended := by
  unfold tToExtended CompletedPoint.toExtended
  vals
  rw [pure_val]
theorem tPreZero_val : tPreZero.val = PrePoint.zero := rfl
theorem tGeMixedAdd_val (p : ExtendedPoint) (q : PrePoint) : (tGeMixedAdd p q).val = geMixedAdd p q := by
  unfold tGeMixedAdd geMixedAdd
  vals
  rw [pure_val]
theorem tEqual_val (b c : BitVec 32) : (tEqual b c).val = equal32 b c := rfl
theorem tNegative_val (b : BitVec 32) : (tNegative b).val = negative32 b := rfl
theorem tPreCMove_val (t u : PrePoint) (b : BitVec 32) : (tPreCMove t u b).val = preCMove t u b := rfl
theorem tSelectLoop_val (pos : Nat) (b : BitVec 32) (l : List Nat) (t : PrePoint) : (tSelectLoop pos b l t).val = selectLoop pos b l t := by
  induction l generalizing t with
  | nil => rfl
  | cons i l ih => simp only [tSelectLoop, selectLoop, bind_val, tEqual_val, tPreCMove_val, ih]
theorem tSelectPoint_val (pos : Nat) (b : BitVec 32) : (tSelectPoint pos b).val = selectPoint pos b := by
  unfold tSelectPoint selectPoint
  rw [bind_val, tNegative_val, bind_val, bind_val, tPreZero_val, bind_val, tSelectLoop_val, bind_val, tFeCopy_val, bind_val, tFeCopy_val, bind_val, tFeNeg_val, tPreCMove_val]
theorem tNibbles_val (i : Nat) (a : List Int) : (tNibbles i a).val = nibbles a := by
  induction a generalizing i with
  | nil => rfl
  | cons v a ih => simp only [tNibbles, bind_val, pure_val, ih]; rfl
theorem tRecode_val (i : Nat) (a : List Int) (c : Int) : (tRecode i a c).val = recode a c := by
  induction a generalizing i c with
  | nil => rfl
  | cons e a ih =>
    cases a with
    | nil => rfl
    | cons e' l => simp only [tRecode, recode, bind_val, pure_val, ih]
theorem tAddDigits_val (e : List Int) (l : List Nat) (h : ExtendedPoint) : (tAddDigits e l h).val = addDigits e l h := by
  induction l generalizing h with
  | nil => rfl
  | cons i l ih => simp only [tAddDigits, addDigits, bind_val, tSelectPoint_val, tGeMixedAdd_val, tToExtended_val, ih]
theorem tGeScalarMultBase_val (a : List Int) : (tGeScalarMultBase a).val = geScalarMultBase a := by
  unfold tGeScalarMultBase geScalarMultBase
  rw [bind_val, tNibbles_val, bind_val, tRecode_val, bind_val, tExtZero_val, bind_val, tAddDigits_val, bind_val, tExtDouble_val, bind_val, tToProjective_val, bind_val, tDouble_val,
    bind_val, tToProjective_val, bind_val, tDouble_val, bind_val, tToProjective_val, bind_val, tDouble_val, bind_val, tToExtended_val, tAddDigits_val]
theorem tScReduce_val (s : List Int) : (tScReduce s).val = scReduce s := by simp only [tScReduce, scReduce, bind_val, pure_val, tRun_val]
theorem tScMulAdd_val (a b c : List Int) : (tScMulAdd a b c).val = scMulAdd a b c := by simp only [tScMulAdd, scMulAdd, bind_val, pure_val, tRun_val]

/-- The steps of the arithmetic: constants. -/
def addS : List Step := (tFeAdd feZero feZero).steps
def subS : List Step := (tFeSub feZero feZero).steps
def negS : List Step := (tFeNeg feZero).steps
def mulS : List Step := (tFeMul feZero feZero).steps
def squareS : List Step := (tFeSquare feZero).steps
def square2S : List Step := (tFeSquare2 feZero).steps
def toBytesS : List Step := (tFeToBytes feZero).steps
def copyS : List Step := (tFeCopy feZero).steps
def cmoveS : List Step := (tFeCMove feZero feZero 0).steps

theorem tFeAdd_steps (a b : Fe) : (tFeAdd a b).steps = addS := by simp only [addS, tFeAdd, bind_steps, tRun_steps, pure_steps]
theorem tFeSub_steps (a b : Fe) : (tFeSub a b).steps = subS := by simp only [subS, tFeSub, bind_steps, tRun_steps, pure_steps]
theorem tFeNeg_steps (a : Fe) : (tFeNeg a).steps = negS := by simp only [negS, tFeNeg, bind_steps, tRun_steps, pure_steps]
theorem tFeMul_steps (a b : Fe) : (tFeMul a b).steps = mulS := by simp only [mulS, tFeMul, bind_steps, tRun_steps, pure_steps]
theorem tFeSquare_steps (a : Fe) : (tFeSquare a).steps = squareS := by simp only [squareS, tFeSquare, bind_steps, tRun_steps, pure_steps]
theorem tFeSquare2_steps (a : Fe) : (tFeSquare2 a).steps = square2S := by simp only [square2S, tFeSquare2, bind_steps, tRun_steps, pure_steps]
theorem tFeToBytes_steps (a : Fe) : (tFeToBytes a).steps = toBytesS := by simp only [toBytesS, tFeToBytes, bind_steps, tRun_steps, pure_steps]
theorem tFeCopy_steps (a : Fe) : (tFeCopy a).steps = copyS := rfl
theorem tFeCMove_steps (f g : Fe) (b : Int) : (tFeCMove f g b).steps = cmoveS := rfl
theorem tFeIsNegative_steps (a : Fe) : (tFeIsNegative a).steps = toBytesS ++ [.index "s" [0]] := by
  simp only [tFeIsNegative, bind_steps, pure_steps, tick_steps, tFeToBytes_steps, List.append_nil]

theorem tSqN_steps (n : Nat) (a b : Fe) : (tSqN n a).steps = (tSqN n b).steps := by
  induction n generalizing a b with
  | zero => rfl
  | succ n ih =>
    simp only [tSqN, bind_steps, tick_steps, tFeSquare_steps]
    rw [ih (tFeSquare a).val (tFeSquare b).val]

def sqNS (n : Nat) : List Step := (tSqN n feZero).steps
theorem tSqN_steps' (n : Nat) (a : Fe) : (tSqN n a).steps = sqNS n := tSqN_steps n a feZero

/-- Steps, statement by statement. -/
macro "stps" : tactic => `(tactic| repeat (with_reducible refine bind_same (by with_reducible first | rfl | exact (tFeAdd_steps _ _).trans (tFeAdd_steps _ _).symm | exact (tFeSub_steps _ _).trans (tFeSub_steps _ _).symm | exact (tFeMul_steps _ _).trans (tFeMul_steps _ _).symm | exact (tFeSquare_steps _).trans (tFeSquare_steps _).symm | exact (tFeSquare2_steps _).trans (tFeSquare2_steps _).symm | exact (tFeNeg_steps _).trans (tFeNeg_steps _).symm | exact (tFeToBytes_steps _).trans (tFeToBytes_steps _).symm | exact (tFeCopy_steps _).trans (tFeCopy_steps _).symm | exact (tFeIsNegative_steps _).trans (tFeIsNegative_steps _).symm | exact (tSqN_steps _ _ _)) fun _ _ => ?_))

def invertS : List Step := (tFeInvert feZero).steps
theorem tFeInvert_steps (z : Fe) : (tFeInvert z).steps = invertS := by
  unfold invertS tFeInvert
  stps
  exact (tFeMul_steps _ _).trans (tFeMul_steps _ _).symm

def P0 : ProjectivePoint := ⟨feZero, feZero, feZero⟩
def C0 : CompletedPoint := ⟨feZero, feZero, feZero, feZero⟩
def E0 : ExtendedPoint := ⟨feZero, feZero, feZero, feZero⟩
def Q0 : PrePoint := ⟨feZero, feZero, feZero⟩

def doubleS : List Step := (tDouble P0).steps
theorem tDouble_steps (p : ProjectivePoint) : (tDouble p).steps = doubleS := by
  unfold doubleS tDouble
  stps
  rfl
def extDoubleS : List Step := (tExtDouble E0).steps
theorem tExtDouble_steps (p : ExtendedPoint) : (tExtDouble p).steps = extDoubleS := by
  unfold extDoubleS tExtDouble
  exact bind_same rfl fun _ _ => (tDouble_steps _).trans (tDouble_steps _).symm
def encodeS : List Step := (tToBytes E0).steps
theorem tToBytes_steps (p : ExtendedPoint) : (tToBytes p).steps = encodeS := by
  unfold encodeS tToBytes
  refine bind_same ((tFeInvert_steps _).trans (tFeInvert_steps _).symm) fun _ _ => ?_
  stps
  rfl
def toProjS : List Step := (tToProjective C0).steps
theorem tToProjective_steps (p : CompletedPoint) : (tToProjective p).steps = toProjS := by
  unfold toProjS tToProjective
  stps
  rfl
def toExtS : List Step := (tToExtended C0).steps
theorem tToExtended_steps (p : CompletedPoint) : (tToExtended p).steps = toExtS := by
  unfold toExtS tToExtended
  stps
  rfl
def mixedS : List Step := (tGeMixedAdd E0 Q0).steps
theorem tGeMixedAdd_steps (p : ExtendedPoint) (q : PrePoint) : (tGeMixedAdd p q).steps = mixedS := by
  unfold mixedS tGeMixedAdd
  stps
  rfl
def preCMoveS : List Step := (tPreCMove Q0 Q0 0).steps
theorem tPreCMove_steps (t u : PrePoint) (b : BitVec 32) : (tPreCMove t u b).steps = preCMoveS := by
  rfl
def equalS : List Step := (tEqual 0 0).steps
theorem tEqual_steps (b c : BitVec 32) : (tEqual b c).steps = equalS := rfl
def negativeS : List Step := (tNegative 0).steps
theorem tNegative_steps (b : BitVec 32) : (tNegative b).steps = negativeS := rfl

theorem tSelectLoop_steps (pos : Nat) (b b' : BitVec 32) (l : List Nat) (t t' : PrePoint) : (tSelectLoop pos b l t).steps = (tSelectLoop pos b' l t').steps := by
  induction l generalizing t t' with
  | nil => rfl
  | cons i l ih =>
    rw [tSelectLoop, tSelectLoop]
    refine bind_same rfl fun _ _ => bind_same (by rw [tEqual_steps, tEqual_steps]) fun _ _ => bind_same rfl fun _ _ => ?_
    exact bind_same (by rw [tPreCMove_steps, tPreCMove_steps]) fun _ _ => ih _ _

def selectLoopS (pos : Nat) (l : List Nat) : List Step := (tSelectLoop pos 0 l Q0).steps
theorem tSelectLoop_steps' (pos : Nat) (b : BitVec 32) (l : List Nat) (t : PrePoint) : (tSelectLoop pos b l t).steps = selectLoopS pos l := tSelectLoop_steps _ _ _ _ _ _

def selectS (pos : Nat) : List Step := (tSelectPoint pos 0).steps
theorem tSelectPoint_steps (pos : Nat) (b : BitVec 32) : (tSelectPoint pos b).steps = selectS pos := by
  unfold selectS tSelectPoint
  refine bind_same (by rw [tNegative_steps, tNegative_steps]) fun _ _ => ?_
  with_reducible refine bind_same rfl fun _ _ => ?_
  with_reducible refine bind_same rfl fun _ _ => ?_
  with_reducible refine bind_same (tSelectLoop_steps _ _ _ _ _ _) fun _ _ => ?_
  stps
  rw [tPreCMove_steps, tPreCMove_steps]

theorem tNibbles_steps (i : Nat) (a a' : List Int) (h : a.length = a'.length) : (tNibbles i a).steps = (tNibbles i a').steps := by
  induction a generalizing i a' with
  | nil => cases a' with
    | nil => rfl
    | cons => cases h
  | cons v a ih => cases a' with
    | nil => cases h
    | cons v' a' =>
      simp only [tNibbles, bind_steps, tick_steps, pure_steps]
      rw [ih (i + 1) a' (by simpa using h)]

theorem tRecode_steps (i : Nat) (a a' : List Int) (c c' : Int) (h : a.length = a'.length) : (tRecode i a c).steps = (tRecode i a' c').steps := by
  induction a generalizing i a' c c' with
  | nil => cases a' with
    | nil => rfl
    | cons => cases h
  | cons v a ih => cases a' with
    | nil => cases h
    | cons v' a' =>
      cases a with
      | nil => cases a' with
        | nil => rfl
        | cons => simp at h
      | cons w a => cases a' with
        | nil => simp at h
        | cons w' a' =>
          simp only [tRecode, bind_steps, tick_steps, pure_steps]
          rw [ih (i + 1) (w' :: a') _ _ (by simpa using h)]

theorem nibbles_length (a : List Int) : (nibbles a).length = 2 * a.length := by
  induction a with
  | nil => rfl
  | cons v a ih => simp only [nibbles, List.flatMap_cons, List.length_append, List.length_cons, List.length_nil] at ih ⊢; omega

theorem tAddDigits_steps (e e' : List Int) (l : List Nat) (h h' : ExtendedPoint) : (tAddDigits e l h).steps = (tAddDigits e' l h').steps := by
  induction l generalizing h h' with
  | nil => rfl
  | cons i l ih =>
    rw [tAddDigits, tAddDigits]
    refine bind_same rfl fun _ _ => bind_same rfl fun _ _ => bind_same (by rw [tSelectPoint_steps, tSelectPoint_steps]) fun _ _ => ?_
    exact bind_same (by rw [tGeMixedAdd_steps, tGeMixedAdd_steps]) fun _ _ => bind_same (by rw [tToExtended_steps, tToExtended_steps]) fun _ _ => ih _ _

theorem tRecode_length (i : Nat) (a : List Int) (c : Int) : (tRecode i a c).val.length = a.length := by
  rw [tRecode_val]
  induction a generalizing c with
  | nil => rfl
  | cons e a ih =>
    cases a with
    | nil => rfl
    | cons e' l => rw [recode, List.length_cons, ih]; rfl

theorem mult_tail (e e' : List Int) (h h' : ExtendedPoint) :
    (do let r ← tExtDouble h
        let s ← tToProjective r
        let r ← tDouble s
        let s ← tToProjective r
        let r ← tDouble s
        let s ← tToProjective r
        let r ← tDouble s
        let h ← tToExtended r
        tAddDigits e ((List.range 32).map fun j => 2 * j) h : Timed ExtendedPoint).steps =
    (do let r ← tExtDouble h'
        let s ← tToProjective r
        let r ← tDouble s
        let s ← tToProjective r
        let r ← tDouble s
        let s ← tToProjective r
        let r ← tDouble s
        let h ← tToExtended r
        tAddDigits e' ((List.range 32).map fun j => 2 * j) h : Timed ExtendedPoint).steps := by
  have hd : ∀ p q, (tDouble p).steps = (tDouble q).steps := fun p q => (tDouble_steps p).trans (tDouble_steps q).symm
  have hp : ∀ p q, (tToProjective p).steps = (tToProjective q).steps := fun p q => (tToProjective_steps p).trans (tToProjective_steps q).symm
  refine bind_same ((tExtDouble_steps _).trans (tExtDouble_steps _).symm) fun _ _ => bind_same (hp _ _) fun _ _ => bind_same (hd _ _) fun _ _ => bind_same (hp _ _) fun _ _ => ?_
  refine bind_same (hd _ _) fun _ _ => bind_same (hp _ _) fun _ _ => bind_same (hd _ _) fun _ _ => ?_
  exact bind_same ((tToExtended_steps _).trans (tToExtended_steps _).symm) fun _ _ => tAddDigits_steps _ _ _ _ _

/-- Multiplying the base point takes the same steps for all scalars of the same length. -/
theorem C106_scalar_mult_steps (a a' : List Int) (h : a.length = a'.length) : (tGeScalarMultBase a).steps = (tGeScalarMultBase a').steps := by
  unfold tGeScalarMultBase
  with_reducible refine bind_same' (tNibbles_steps 0 a a' h) ?_
  have hl : (tNibbles 0 a).val.length = (tNibbles 0 a').val.length := by rw [tNibbles_val, tNibbles_val, nibbles_length, nibbles_length, h]
  with_reducible refine bind_same (tRecode_steps 0 _ _ 0 0 hl) fun e e' => ?_
  with_reducible refine bind_same rfl fun _ _ => ?_
  with_reducible refine bind_same (tAddDigits_steps _ _ _ _ _) fun _ _ => ?_
  with_reducible exact mult_tail _ _ _ _

end Verif.Limb

namespace Verif
open Verif.Limb Verif.Steps

theorem tSha512_val (G : GoLib) (parts : List Bytes) : (tSha512 G parts).val = G.sha512 parts.flatten := rfl
theorem tSha512_steps (G : GoLib) (parts : List Bytes) : (tSha512 G parts).steps = [.lib "sha512" (parts.map List.length)] := rfl

/-- C106: the signing function with its steps computes the signature of the signing function without. -/
theorem C106_sign_value (G : GoLib) (priv : Key32) (msg : Bytes) (random : Arr 64) : (tSign G priv msg random).val = sign G priv msg random := by
  simp only [tSign, bind_val, pure_val, tGeScalarMultBase_val, tToBytes_val, tSha512_val, tScReduce_val, tScMulAdd_val, sign,
    List.flatten_cons, List.flatten_nil, List.append_nil, List.append_assoc]

def scReduceS : List Step := (tScReduce []).steps
theorem tScReduce_steps (s : List Int) : (tScReduce s).steps = scReduceS := by simp only [scReduceS, tScReduce, bind_steps, tRun_steps, pure_steps]
def scMulAddS : List Step := (tScMulAdd [] [] []).steps
theorem tScMulAdd_steps (a b c : List Int) : (tScMulAdd a b c).steps = scMulAddS := by simp only [scMulAddS, tScMulAdd, bind_steps, tRun_steps, pure_steps]

theorem ints_length (b : Bytes) : (ints b).length = b.length := by simp [ints]

def multS : List Step := (tGeScalarMultBase (List.replicate 32 0)).steps
theorem mult_steps (k : Arr 32) : (tGeScalarMultBase (ints k.bytes)).steps = multS :=
  C106_scalar_mult_steps _ _ (by rw [ints_length, k.len, List.length_replicate])

/-- C106: signing takes the same steps for every private key, every message of the same length and all random bytes: who measures it learns nothing about the key, the nonce or the message
(whatever the hash function). -/
theorem C106_sign_steps (G G' : GoLib) (priv priv' : Key32) (msg msg' : Bytes) (random random' : Arr 64) (h : msg.length = msg'.length) :
    (tSign G priv msg random).steps = (tSign G' priv' msg' random').steps := by
  simp only [tSign, bind_steps, pure_steps, mult_steps, tToBytes_steps, tSha512_steps, tScReduce_steps, tScMulAdd_steps, List.map_cons, List.map_nil, Arr.len, h]

/-- The steps are there: the first half of a table row is looked at in full. -/
example (G : GoLib) (priv : Key32) (msg : Bytes) (random : Arr 64) (i : Nat) (h : i < 8) : Step.index "base" [0, i] ∈ (tSign G priv msg random).steps := by
  have hsel : ∀ (l : List Nat) (b : BitVec 32) (t : PrePoint), i ∈ l → Step.index "base" [0, i] ∈ (tSelectLoop 0 b l t).steps := by
    intro l
    induction l with
    | nil => intro b t hi; cases hi
    | cons j l ih =>
      intro b t hi
      simp only [tSelectLoop, bind_steps, tick_steps, List.mem_append, List.mem_singleton]
      rcases List.mem_cons.1 hi with rfl | hi
      · exact .inr (.inr (.inl rfl))
      · exact .inr (.inr (.inr (.inr (ih _ _ hi))))
  have hpt : ∀ b : BitVec 32, Step.index "base" [0, i] ∈ (tSelectPoint 0 b).steps := by
    intro b
    simp only [tSelectPoint, bind_steps, List.mem_append]
    exact .inr (.inr (.inr (.inl (hsel _ _ _ (List.mem_range.2 h)))))
  have hadd : ∀ (e : List Int) (l : List Nat) (p : ExtendedPoint), Step.index "base" [0, i] ∈ (tAddDigits e (1 :: l) p).steps := by
    intro e l p
    simp only [tAddDigits, bind_steps, List.mem_append]
    exact .inr (.inr (.inl (hpt _)))
  have hr : (List.range 32).map (fun j => 2 * j + 1) = 1 :: ((List.range 31).map fun j => 2 * (j + 1) + 1) := by decide
  simp only [tSign, bind_steps, List.mem_append]
  refine .inl ?_
  simp only [tGeScalarMultBase, bind_steps, List.mem_append]
  rw [hr]
  exact .inr (.inr (.inr (.inl (hadd _ _ _))))

/- Comparing MACs. -/

theorem or_xor_zero (v x y : UInt8) : (v ||| (x ^^^ y)) = 0 ↔ v = 0 ∧ x = y := by
  constructor
  · intro h
    have h1 := congrArg UInt8.toBitVec h
    refine ⟨UInt8.toBitVec_inj.1 ?_, UInt8.toBitVec_inj.1 ?_⟩
    · simp only [UInt8.toBitVec_or, UInt8.toBitVec_xor] at h1
      exact (BitVec.or_eq_zero_iff.1 h1).1
    · simp only [UInt8.toBitVec_or, UInt8.toBitVec_xor] at h1
      exact BitVec.xor_eq_zero_iff.1 (BitVec.or_eq_zero_iff.1 h1).2
  · rintro ⟨rfl, rfl⟩; simp

theorem tCompareLoop_val (xs ys : Bytes) (h : xs.length = ys.length) (i : Nat) (v : UInt8) : (tCompareLoop i xs ys v).val = 0 ↔ v = 0 ∧ xs = ys := by
  induction xs generalizing ys i v with
  | nil => cases ys with
    | nil => exact ⟨fun h => ⟨h, rfl⟩, fun h => h.1⟩
    | cons => cases h
  | cons x xs ih => cases ys with
    | nil => cases h
    | cons y ys =>
      simp only [tCompareLoop, bind_val]
      rw [ih ys (by simpa using h), or_xor_zero]
      constructor
      · rintro ⟨⟨rfl, rfl⟩, rfl⟩; exact ⟨rfl, rfl⟩
      · rintro ⟨rfl, h⟩; cases h; exact ⟨⟨rfl, rfl⟩, rfl⟩

theorem tCompareLoop_steps (xs ys xs' ys' : Bytes) (h : xs.length = ys.length) (h' : xs'.length = ys'.length) (hh : xs.length = xs'.length) (i : Nat) (v v' : UInt8) :
    (tCompareLoop i xs ys v).steps = (tCompareLoop i xs' ys' v').steps := by
  induction xs generalizing ys xs' ys' i v v' with
  | nil =>
    cases ys <;> cases xs' <;> cases ys' <;> simp at h h' hh <;> rfl
  | cons x xs ih =>
    cases ys <;> cases xs' <;> cases ys' <;> simp at h h' hh
    simp only [tCompareLoop, bind_steps, tick_steps]
    rw [ih _ _ _ h h' hh]

/-- C106: the comparison compares. -/
theorem C106_equal_value (x y : Bytes) : (tHmacEqual x y).val = decide (x = y) := by
  rw [tHmacEqual, cond_val]
  by_cases h : x.length = y.length
  · simp only [h, ne_eq, not_true_eq_false, decide_false, Bool.false_eq_true, if_false, bind_val, pure_val]
    rw [Bool.eq_iff_iff, beq_iff_eq, tCompareLoop_val x y h, decide_eq_true_iff]; simp
  · simp only [h, ne_eq, not_false_eq_true, decide_true, if_true, pure_val]
    symm; rw [decide_eq_false_iff_not]; rintro rfl; exact h rfl

/-- C106: the steps of the comparison depend on the two lengths only: not on where the first difference is. -/
theorem C106_equal_steps (x y x' y' : Bytes) (hx : x.length = x'.length) (hy : y.length = y'.length) : (tHmacEqual x y).steps = (tHmacEqual x' y').steps := by
  rw [tHmacEqual, tHmacEqual, cond_steps, cond_steps]
  by_cases h : x.length = y.length
  · have h' : x'.length = y'.length := by rw [← hx, ← hy, h]
    simp only [h, h', ne_eq, not_true_eq_false, decide_false, Bool.false_eq_true, if_false, bind_steps, pure_steps]
    rw [tCompareLoop_steps x y x' y' h h' hx 0 0 0]
  · have h' : ¬ x'.length = y'.length := by rw [← hx, ← hy]; exact h
    simp only [h, h', ne_eq, not_false_eq_true, decide_true, if_true, pure_steps]

/-- C106: `VerifyMac` with its steps is `VerifyMac`. -/
theorem C106_mac_value (C : Crypto) (S : Ser SMStruct) (m : SignalMsg) (version : Int) (sender receiver : Option Key32) (macKey : Bytes) :
    (m.tVerifyMac C S version sender receiver macKey).val = m.verifyMac C S version sender receiver macKey := by
  rw [SignalMsg.tVerifyMac, SignalMsg.verifyMac]
  cases newSignalMessageFromStruct m.struct with
  | err e => rfl
  | panic => rfl
  | ok m' =>
    show Timed.val (match S.ser { m'.struct with mac := none, version := 0 } with | .err e => _ | .panic => _ | .ok body => _) = (S.ser { m'.struct with mac := none, version := 0 }).bind _
    cases S.ser { m'.struct with mac := none, version := 0 } with
    | err e => rfl
    | panic => rfl
    | ok body =>
      show Timed.val (match getMac C version sender receiver macKey (itoa m.struct.version ++ body) with | .err e => _ | .panic => _ | .ok ours => _) =
        (getMac C version sender receiver macKey (itoa m.struct.version ++ body)).bind _
      cases getMac C version sender receiver macKey (itoa m.struct.version ++ body) with
      | err e => rfl
      | panic => rfl
      | ok ours =>
        simp only [bind_val, cond_val, C106_equal_value, pure_val, Res.bind]
        by_cases h : ours = m.struct.mac.getD [] <;> simp [h]

theorem getMac_ok (C : Crypto) (version : Int) (sender receiver : Option Key32) (k k' b : Bytes) :
    (∃ o o', getMac C version sender receiver k b = .ok o ∧ getMac C version sender receiver k' b = .ok o' ∧ o.length = o'.length) ∨
    (getMac C version sender receiver k b = .panic ∧ getMac C version sender receiver k' b = .panic) := by
  unfold getMac
  have ht : ∀ a : Arr 32, trim a.bytes macLength = .ok (a.bytes.take macLength) := by
    intro a; rw [trim, if_neg]; rw [a.len]; decide
  by_cases h : 3 ≤ version
  · rw [if_pos h, if_pos h]
    cases sender with
    | none => exact .inr ⟨rfl, rfl⟩
    | some s => cases receiver with
      | none => exact .inr ⟨rfl, rfl⟩
      | some r => exact .inl ⟨_, _, ht _, ht _, by simp [Arr.len]⟩
  · rw [if_neg h, if_neg h]; exact .inl ⟨_, _, ht _, ht _, by simp [Arr.len]⟩

/-- C106: checking the MAC of a message takes the same steps whatever the MAC key (of a given length) and whatever MAC (of a given length) was tried, as long as the verdict is the same: the time of
a refusal does not tell how much of the MAC was right. -/
theorem C106_mac_steps (C : Crypto) (S : Ser SMStruct) (m : SignalMsg) (mac : Option Bytes) (version : Int) (sender receiver : Option Key32) (k k' : Bytes) (hk : k.length = k'.length)
    (hm : (m.struct.mac.getD []).length = (mac.getD []).length)
    (hres : m.verifyMac C S version sender receiver k = SignalMsg.verifyMac C S { m with struct := { m.struct with mac := mac } } version sender receiver k') :
    (m.tVerifyMac C S version sender receiver k).steps =
      (SignalMsg.tVerifyMac C S { m with struct := { m.struct with mac := mac } } version sender receiver k').steps := by
  rw [← C106_mac_value, ← C106_mac_value] at hres
  rw [SignalMsg.tVerifyMac, SignalMsg.tVerifyMac] at hres ⊢
  obtain ⟨st, rk0⟩ := m
  obtain ⟨rk, ctr, pc, ct, ver, mac0⟩ := st
  have hb : ((newSignalMessageFromStruct ⟨rk, ctr, pc, ct, ver, mac⟩).bind fun m' => S.ser { m'.struct with mac := none, version := 0 }) =
      ((newSignalMessageFromStruct ⟨rk, ctr, pc, ct, ver, mac0⟩).bind fun m' => S.ser { m'.struct with mac := none, version := 0 }) := by
    simp only [newSignalMessageFromStruct]
    cases checkVersion ver with
    | err e => rfl
    | panic => rfl
    | ok u =>
      cases ct with
      | none => rfl
      | some c => cases rk with
        | none => rfl
        | some rk => simp only [Res.bind]; cases decodePoint rk <;> rfl
  simp only [hb] at hres ⊢
  generalize ((newSignalMessageFromStruct ⟨rk, ctr, pc, ct, ver, mac0⟩).bind fun m' => S.ser { m'.struct with mac := none, version := 0 }) = x at hres ⊢
  cases x with
  | err e => rfl
  | panic => rfl
  | ok body =>
    simp only [bind_steps, bind_val, tick_steps, hk] at hres ⊢
    congr 2
    rcases getMac_ok C version sender receiver k k' (itoa ver ++ body) with ⟨o, o', h1, h2, hl⟩ | ⟨h1, h2⟩
    · rw [h1, h2] at hres ⊢
      simp only [bind_steps, bind_val, cond_val, cond_steps, pure_val, pure_steps, ite_self] at hres ⊢
      rw [C106_equal_steps o _ o' _ hl hm]
      generalize (tHmacEqual o (mac0.getD [])).val = e1 at hres ⊢
      generalize (tHmacEqual o' (mac.getD [])).val = e2 at hres ⊢
      cases e1 <;> cases e2 <;> simp_all
    · rw [h1, h2]

/-- The comparison takes as many steps for a MAC that is wrong at the start as for one that is wrong at the end, and they are not none. -/
example : (tHmacEqual [1, 2, 3] [9, 2, 3]).steps = (tHmacEqual [1, 2, 3] [1, 2, 9]).steps ∧ (tHmacEqual [1, 2, 3] [9, 2, 3]).steps.length = 11 ∧
    (tHmacEqual [1, 2, 3] [9, 2, 3]).val = false ∧ (tHmacEqual [1, 2, 3] [1, 2, 3]).val = true := by decide

end Verif

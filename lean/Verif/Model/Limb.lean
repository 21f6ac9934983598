/-
The fragment of Go in which ecc/edwards25519/edwards25519.go writes its field and scalar arithmetic: sequences of
assignments of fixed-width integer expressions.  The programs themselves are in Model/LimbGen.lean (generated from the
source by tools/go2lean.py).
-/
namespace Verif.Limb

/-- `byte`, `int32` and `int64`. The language in which ecc/edwards25519/edwards25519.go is transcribed. -/
inductive Wd where
  | w8
  | w32
  | w64
deriving DecidableEq

/-- The language in which ecc/edwards25519/edwards25519.go is transcribed. -/
def Wd.bits : Wd → Nat
  | .w8 => 8
  | .w32 => 32
  | .w64 => 64

/-- Conversion to a type: the Go specification keeps the low bits, read as unsigned (byte) or two's complement.
The language in which ecc/edwards25519/edwards25519.go is transcribed. -/
def Wd.wrap : Wd → Int → Int
  | .w8, x => x % 256
  | .w32, x => Int.bmod x (2 ^ 32)
  | .w64, x => Int.bmod x (2 ^ 64)

/-- Expressions; the operations that can overflow carry the type they are computed in.  Variables are numbered.
The language in which ecc/edwards25519/edwards25519.go is transcribed. -/
inductive Ex where
  | v (x : Nat)
  | k (n : Int)
  | add (w : Wd) (a b : Ex)
  | sub (w : Wd) (a b : Ex)
  | mul (w : Wd) (a b : Ex)
  | neg (w : Wd) (a : Ex)
  | and (w : Wd) (a b : Ex)
  | or (w : Wd) (a b : Ex)
  | shl (w : Wd) (a : Ex) (n : Nat)
  | shr (a : Ex) (n : Nat)
  | cast (w : Wd) (a : Ex)

/-- The language in which ecc/edwards25519/edwards25519.go is transcribed. -/
abbrev Env := Nat → Int

/-- Value of an expression on a machine with wrap-around arithmetic; `>>` on a signed operand is an arithmetic shift
(rounds down), bitwise operations act on the two's complement representation. The language in which ecc/edwards25519/edwards25519.go is transcribed. -/
def Ex.eval (ρ : Env) : Ex → Int
  | .v x => ρ x
  | .k n => n
  | .add w a b => w.wrap (a.eval ρ + b.eval ρ)
  | .sub w a b => w.wrap (a.eval ρ - b.eval ρ)
  | .mul w a b => w.wrap (a.eval ρ * b.eval ρ)
  | .neg w a => w.wrap (- a.eval ρ)
  | .and w a b => w.wrap (BitVec.ofInt w.bits (a.eval ρ) &&& BitVec.ofInt w.bits (b.eval ρ)).toNat
  | .or w a b => w.wrap (BitVec.ofInt w.bits (a.eval ρ) ||| BitVec.ofInt w.bits (b.eval ρ)).toNat
  | .shl w a n => w.wrap (a.eval ρ * 2 ^ n)
  | .shr a n => a.eval ρ / 2 ^ n
  | .cast w a => w.wrap (a.eval ρ)

/-- A sequence of assignments. The language in which ecc/edwards25519/edwards25519.go is transcribed. -/
abbrev Prog := List (Nat × Ex)

/-- The language in which ecc/edwards25519/edwards25519.go is transcribed. -/
def Env.set (ρ : Env) (x : Nat) (n : Int) : Env := fun y => if y = x then n else ρ y

/-- Run a program. The language in which ecc/edwards25519/edwards25519.go is transcribed. -/
def run : Prog → Env → Env
  | [], ρ => ρ
  | (x, e) :: p, ρ => run p (ρ.set x (e.eval ρ))

/-- Smallest and largest value of a type. The language in which ecc/edwards25519/edwards25519.go is transcribed. -/
def Wd.lo : Wd → Int
  | .w8 => 0
  | .w32 => -2147483648
  | .w64 => -9223372036854775808
/-- The language in which ecc/edwards25519/edwards25519.go is transcribed. -/
def Wd.hi : Wd → Int
  | .w8 => 255
  | .w32 => 2147483647
  | .w64 => 9223372036854775807

/-- The language in which ecc/edwards25519/edwards25519.go is transcribed. -/
def Wd.fits (w : Wd) (n : Int) : Prop := w.lo ≤ n ∧ n ≤ w.hi

/-- No operation in the expression overflows the type it is computed in, and no conversion loses bits.
The language in which ecc/edwards25519/edwards25519.go is transcribed. -/
def Ex.safe (ρ : Env) : Ex → Prop
  | .v _ => True
  | .k _ => True
  | .add w a b => a.safe ρ ∧ b.safe ρ ∧ w.fits (a.eval ρ + b.eval ρ)
  | .sub w a b => a.safe ρ ∧ b.safe ρ ∧ w.fits (a.eval ρ - b.eval ρ)
  | .mul w a b => a.safe ρ ∧ b.safe ρ ∧ w.fits (a.eval ρ * b.eval ρ)
  | .neg w a => a.safe ρ ∧ w.fits (- a.eval ρ)
  | .and _ a b => a.safe ρ ∧ b.safe ρ
  | .or _ a b => a.safe ρ ∧ b.safe ρ
  | .shl w a n => a.safe ρ ∧ w.fits (a.eval ρ * 2 ^ n)
  | .shr a _ => a.safe ρ
  | .cast w a => a.safe ρ ∧ w.fits (a.eval ρ)

/-- A run in which nothing overflows. The language in which ecc/edwards25519/edwards25519.go is transcribed. -/
def safeRun : Prog → Env → Prop
  | [], _ => True
  | (x, e) :: p, ρ => e.safe ρ ∧ safeRun p (ρ.set x (e.eval ρ))

end Verif.Limb

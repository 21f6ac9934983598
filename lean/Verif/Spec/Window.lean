/-
Specification of a receive window: which message numbers of one sending chain are still
acceptable.  Messages are numbered 0, 1, 2, … without bound ("positions"); on the wire the
position is shown modulo 2^32 ("counter").  Nothing here mentions keys or the code.
-/
namespace Verif

/-- `next`: one more than the highest position seen; `skipped`: positions below `next` not yet
received and still remembered, in the order they were skipped. -/
structure Window where
  next : Nat
  skipped : List Nat
deriving DecidableEq

namespace Window

/-- How far ahead of `next` a message may be, and how many skipped positions are remembered. -/
structure Limits where
  future : Nat
  memory : Nat

/-- The counter shown for a position. -/
def counter (p : Nat) : Nat := p % 2 ^ 32

/-- The last `n` elements. -/
def lastN {α : Type} (n : Nat) (l : List α) : List α := l.drop (l.length - n)

/-- Receiving counter `c`: the position it denotes and the new window, or `none` when rejected. -/
def accept (L : Limits) (w : Window) (c : Nat) : Option (Nat × Window) :=
  if c < counter w.next then
    match w.skipped.find? (fun p => counter p = c) with
    | some p => some (p, { w with skipped := w.skipped.eraseP (fun p => counter p = c) })
    | none => none
  else if c - counter w.next ≤ L.future then
    let p := w.next + (c - counter w.next)
    some (p, { next := p + 1,
               skipped := lastN L.memory (w.skipped ++ (List.range (c - counter w.next)).map (w.next + ·)) })
  else none

/-- Receiving a list of counters, collecting the accepted positions. -/
def run (L : Limits) : Window → List Nat → List (Option Nat) × Window
  | w, [] => ([], w)
  | w, c :: cs =>
    match accept L w c with
    | none => let (r, w') := run L w cs; (none :: r, w')
    | some (p, w1) => let (r, w') := run L w1 cs; (some p :: r, w')

def empty : Window := ⟨0, []⟩

end Window
end Verif

import Verif.Model.Logging
/-
What comes out of the logger, told from the history of calls; and which lines the session code may print.  (Only the types of log calls
and outputs are taken from the model.)
-/
namespace Verif.LogSpec

/-- `ps` are the pieces of `s` between its commas. -/
def Pieces (s : Bytes) (ps : List Bytes) : Prop := ps ≠ [] ∧ [44].intercalate ps = s ∧ ∀ p ∈ ps, 44 ∉ p

/-- The settings name the caller: a piece is "all", or a part of the caller's file name and line. -/
def Names (settings caller : Bytes) : Prop := ∃ ps, Pieces settings ps ∧ ∃ p ∈ ps, p = ascii "all" ∨ p <:+: caller

/-- The logger in use: the one given to the last `Setup` (nil, or no `Setup`: the default logger). -/
def inUse : List LogOp → Option Nat
  | [] => none
  | o :: before =>
    match o with
    | .setup n => n
    | _ => inUse before

/-- The settings of the last `Configure` since the last `Setup`.  (Both functions read the history from its end.) -/
def settings : List LogOp → Option Bytes
  | [] => none
  | o :: before =>
    match o with
    | .setup _ => none
    | .configure t => some t
    | _ => settings before

/-- What a log call must produce after the calls `before` (the latest first): the installed logger gets it, whatever its level; the default logger prints
warnings and errors, of all callers until it is configured, then of the named ones. -/
def Produces (before : List LogOp) (level : Level) (caller msg : Bytes) (out : List Output) : Prop :=
  match inUse before with
  | some n => out = [.handed n level caller msg]
  | none =>
    ((level = .warning ∨ level = .error) ∧ (∀ t, settings before = some t → Names t caller) → out = [.printed level caller msg]) ∧
    (¬ ((level = .warning ∨ level = .error) ∧ (∀ t, settings before = some t → Names t caller)) → out = [])

/-- The texts of the lines printed by the session code. -/
def texts : List String :=
  ["Unable to get plain text from ciphertext: ", "Unable to decrypt message with state: ", "Uninitialized session!", "Wrong message version!",
   "Unable to get or create chain key: ", "Unable to get or create message keys: ", "Unable to verify ciphertext mac: ",
   "We've already setup a session for this V3 message, letting bundled message fall through..."]

/-- A harmless argument: a fixed text, or an error. -/
def Harmless : Arg → Prop
  | .text s => s ∈ texts
  | .error _ => True
  | _ => False

/-- What the default logger prints of a list of log calls. -/
def printed (calls : List LogCall) : List LogCall := calls.filter fun c => c.level = .warning || c.level = .error

end Verif.LogSpec

import Verif.Model.Misc
/-
fingerprint/display.go and fingerprint/fingerprint.go: the objects given to the application.
-/
namespace Verif

/-- fingerprint/display.go:18-21 `Display`. -/
structure Display where
  localNumbers : Bytes
  remoteNumbers : Bytes
deriving DecidableEq

/-- fingerprint/display.go:10-15 `NewDisplay`. -/
def newDisplay (localFp remoteFp : Bytes) : Res Display :=
  (displayStringFor localFp).bind fun l => (displayStringFor remoteFp).map fun r => ⟨l, r⟩

/-- fingerprint/display.go:24-29 `DisplayText`. -/
def Display.text (d : Display) : Bytes :=
  if bytesLt d.localNumbers d.remoteNumbers then d.localNumbers ++ d.remoteNumbers else d.remoteNumbers ++ d.localNumbers

/-- fingerprint/fingerprint.go:12-15 `Fingerprint`. -/
structure Fingerprint where
  display : Display
  scan : Bytes

/-- fingerprint/fingerprint.go:4-8 `NewFingerprint`: the scannable text keeps its zero value. -/
def newFingerprint (d : Display) : Fingerprint := ⟨d, []⟩

/-- What both getters of a fingerprint made from two byte strings return: fingerprint/display.go:24-29 (through fingerprint.go:19-21) and fingerprint/fingerprint.go:25-27 `Scan`. -/
def fingerprintTexts (localFp remoteFp : Bytes) : Res (Bytes × Bytes) :=
  (newDisplay localFp remoteFp).map fun d => ((newFingerprint d).display.text, (newFingerprint d).scan)

end Verif

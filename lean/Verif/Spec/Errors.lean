import Verif.Platform.Linux
import Verif.Spec.Sense
/-!
# What a caller that catches `AsiException` catches

The class hierarchy of errors.py and win32.py, written down as a table.
-/

namespace Verif.Spec
open Verif Verif.Executer Verif.Platform

/-- `except AsiException` catches this exception: the device's errors (`AsiSCSIError`, `AsiCheckConditionError`,
`AsiReservationConflictError`, `AsiRequestQueueFullError`), `AsiOSError` (with `AsiWin32OSError`) and `AsiInternalError`; it does not catch
Python's own exceptions (`IOError`, `NameError`, `ValueError`, …) nor those of infi.instruct. -/
def Caught {S : Type} : Exn (DevErr S) → Prop
  | .dev _ => True
  | .py .asiOs => True
  | .py .asiInternal => True
  | .py .asiScsi => True
  | .py .asiQueueFull => True
  | .py .asiReservationConflict => True
  | .py _ => False

/-- A sense buffer as devices send it (SPC-4 4.5): not of the descriptor format, or with the reserved byte 6 zero. -/
def ReservedZero (b : Bytes) : Prop := (responseCode b ≠ 0x72 ∧ responseCode b ≠ 0x73) ∨ byteAt b 6 = 0

end Verif.Spec

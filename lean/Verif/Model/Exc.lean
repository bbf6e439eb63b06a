/-!
# Exceptions as values

The Python exceptions that the modelled functions can raise.
-/

namespace Verif

/-- The Python exception classes raised by the modelled code. `EpisodeEnd` and `FileEndedError`
are defined in `src/synthpix/scheduler/protocol.py` (lines 96-105), the others are built in.
Messages are not modelled. -/
inductive Exc where
  | stopIteration
  | episodeEnd
  | fileEnded
  | valueError
  | indexError
  | typeError
  | attributeError
  | keyError
  | fileNotFound
  | assertionError
  | notImplemented
  | runtimeError
  | zeroDivision
  /-- any exception raised by a third-party loader, tagged -/
  | other (tag : Nat)
  deriving DecidableEq, Repr, Inhabited

end Verif

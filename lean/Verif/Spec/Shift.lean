import Verif.Model.File

/-!
# Specification vocabulary: the same thing further along a stream
-/

namespace Gvas.Spec

/-- The error with its position moved by `k`. -/
def moveErr (k : Nat) : Err → Err
  | .invalidValueSize e a p => .invalidValueSize e a (p + k)
  | .invalidString len p => .invalidString len (p + k)
  | .invalidStringTerminator t p => .invalidStringTerminator t (p + k)
  | .invalidBoolean v p => .invalidBoolean v (p + k)
  | .missingHint ty path p => .missingHint ty path (p + k)
  | .missingArgument name p => .missingArgument name (p + k)
  | .invalidProperty reason p => .invalidProperty reason (p + k)
  | .invalidEnumValue name v p => .invalidEnumValue name v (p + k)
  | .invalidArrayIndex v p => .invalidArrayIndex v (p + k)
  | .invalidTerminator v p => .invalidTerminator v (p + k)
  | .fromUtf16 p => .fromUtf16 (p + k)
  | .fromUtf8 p => .fromUtf8 (p + k)
  | .invalidHeader msg => .invalidHeader msg
  | .serializeInvalidValue msg => .serializeInvalidValue msg
  | .eof => .eof
  | .io => .io

/-- The outcome with the position of an error moved by `k`. -/
def moveRes {α : Type} (k : Nat) : Res α → Res α
  | .ok a => .ok a
  | .bad (.err e) => .bad (.err (moveErr k e))
  | .bad (.panic msg) => .bad (.panic msg)
  | .bad .fuel => .bad .fuel

/-- The reader `k` bytes further along a stream. -/
def moveState (k : Nat) (s : RS) : RS := { s with pos := s.pos + k }

/-- The outcome and the reader moved by `k`. -/
def moveOut {α : Type} (k : Nat) (x : Res α × RS) : Res α × RS := (moveRes k x.1, moveState k x.2)

end Gvas.Spec

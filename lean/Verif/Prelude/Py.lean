/-!
# Python exceptions
-/

namespace Verif

/-- The exception classes raised by the modelled code. -/
inductive PyError where
  | typeError
  | keyError
  | valueError
  | attributeError
  | indexError
  | nameError
  | ioError
  | zeroDivision
  | assertionError
  | runtimeError
  deriving DecidableEq, Repr

/-- Did the call return a value? -/
def Except.isOk' {ε β : Type} : Except ε β → Bool
  | .ok _ => true
  | .error _ => false

end Verif

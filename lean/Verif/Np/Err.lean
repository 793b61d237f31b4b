/-!
Python exceptions as values.

The model of a Python function that may raise has type `Except PyErr a`. Only the exception classes
the code of skcurve (or numpy underneath it) distinguishes are listed.
-/
namespace Verif

/-- Exception classes. `interpolationError`, `smoothingError`, `intersectionError` model the classes of
the same name (_interpolate.py 80-82, _smooth.py 24-26, _intersect.py 45-47). -/
inductive PyErr
  | valueError | indexError | typeError | nameError | attributeError | zeroDivision | runtimeError
  | keyError | linAlgError | overflowError | interpolationError | smoothingError | intersectionError
  deriving DecidableEq, Repr

deriving instance DecidableEq for Except

/-- Did the call return normally? -/
def okB {α : Type _} : Except PyErr α → Bool
  | .ok _ => true
  | .error _ => false

end Verif

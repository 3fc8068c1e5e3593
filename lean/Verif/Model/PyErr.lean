/-!
# Python exceptions as values

The model returns `Except PyErr α` wherever the modelled function may raise.  Only the class of
the exception is kept; messages are not modelled.
-/

namespace B3d

/-- Exception classes raised by the modelled code.
`geometryError`, `triangulationError` are defined in `building3d/geom/exceptions.py` L1-15, the
others are Python built-ins. -/
inductive PyErr where
  | valueError
  | keyError
  | indexError
  | typeError
  | assertionError
  | runtimeError
  | fileExistsError
  | fileNotFoundError
  | notADirectoryError
  | isADirectoryError
  | attributeError
  | nameError
  | zeroDivisionError
  | notImplementedError
  | reError
  | geometryError
  | triangulationError
  deriving DecidableEq, Repr

deriving instance DecidableEq for Except

end B3d

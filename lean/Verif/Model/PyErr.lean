/-
Outcomes of Python code that are not a returned value.
-/
namespace Verif

/-- The exceptions that occur in the modelled code (`os` for other subclasses of `OSError`,
such as `IsADirectoryError`), plus `diverges` for a loop
that never ends.
(e.g. `array.py:151`, `simulator.py:256`, `fileutilities.py:63`.) -/
inductive PyErr
  | assertion | attribute | fileNotFound | index | key | name | notImplemented
  | stopIteration | typeErr | unbound | value | zeroDivision | fileExists
  | diverges | os
  deriving DecidableEq, Repr

end Verif

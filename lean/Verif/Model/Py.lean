/-!
# Python exceptions as values
-/

namespace Tatc

/-- The exceptions that modelled functions can raise.
(for example `src/tatc/utils.py` L1214, L1225).  `running` is no exception: it is the answer of a
function with a `while` loop whose bound on the number of steps was too small
(`src/tatc/schemas/satellite.py` L370). -/
inductive PyErr
  | keyError
  | indexError
  | valueError
  | typeError
  | zeroDivisionError
  | validationError
  | unboundLocalError
  | configError
  | importError
  | attributeError
  | fileError
  | yamlError
  | running
deriving DecidableEq, Repr

/-- `if not p: raise e` (for example `src/tatc/utils.py` L1224-L1225). -/
def require (p : Prop) [Decidable p] (e : PyErr) : Except PyErr Unit :=
  if p then .ok () else .error e

end Tatc

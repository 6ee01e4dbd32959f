import Verif.Model.Ieee
import Mathlib.Analysis.SpecialFunctions.Trigonometric.Basic

/-!
# Floating point arithmetic of the loop for the eccentric anomaly
-/

namespace Tatc.Ieee
open Tatc.Num

/-- `np.sin` (`src/tatc/schemas/satellite.py` L372): any function that is within a unit in the last place of one of the sine. -/
structure Sine where
  run : ℝ → ℝ
  close : ∀ x, |run x - Real.sin x| ≤ 1 / 2 ^ 52

/-- `1e-6`, the double precision number (`src/tatc/schemas/satellite.py` L370). -/
noncomputable def tolerance : ℝ := fl (1 / 10 ^ 6)

/-- One step of the loop, `psi = n + e * np.sin(psi_)` (`src/tatc/schemas/satellite.py` L372). -/
noncomputable def keplerStep (sine : Sine) (n e psi : ℝ) : ℝ := fl (n + fl (e * sine.run psi))

/-- The loop for the eccentric anomaly (`src/tatc/schemas/satellite.py` L370-L372), stopped after `fuel` tests of its
condition; `prev` and `psi` are `psi_` and `psi`. -/
noncomputable def keplerLoop (sine : Sine) (n e : ℝ) : Nat → ℝ → ℝ → Except PyErr ℝ
  | 0, _, _ => .error .running
  | fuel + 1, prev, psi =>
    if |fl (psi - prev)| > tolerance then keplerLoop sine n e fuel psi (keplerStep sine n e psi) else .ok psi

/-- The loop from its first values, `psi_ = 0` and `psi = 0.1` (`src/tatc/schemas/satellite.py` L368-L372). -/
noncomputable def eccentricAnomaly (sine : Sine) (n e : ℝ) (fuel : Nat) : Except PyErr ℝ :=
  keplerLoop sine n e fuel 0 (fl (1 / 10))

end Tatc.Ieee

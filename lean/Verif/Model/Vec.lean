import Mathlib.Data.Real.Basic

/-!
# Vectors in space

The `numpy` operations on arrays of three numbers used in `src/tatc/schemas/satellite.py` L327-L365,
`src/tatc/analysis/ro_coverage.py` and `src/tatc/utils.py`.
-/

namespace Tatc

/-- An array of three numbers (`src/tatc/schemas/satellite.py` L327). -/
@[ext]
structure V3 where
  x : ℝ
  y : ℝ
  z : ℝ

namespace V3

/-- `a + b` (`src/tatc/schemas/satellite.py` L333-L337). -/
def add (a b : V3) : V3 := ⟨a.x + b.x, a.y + b.y, a.z + b.z⟩
/-- `c * a` (`src/tatc/schemas/satellite.py` L334). -/
def smul (c : ℝ) (a : V3) : V3 := ⟨c * a.x, c * a.y, c * a.z⟩
/-- `np.dot(a, b)` (`src/tatc/schemas/satellite.py` L340). -/
def dot (a b : V3) : ℝ := a.x * b.x + a.y * b.y + a.z * b.z
/-- `np.cross(a, b)` (`src/tatc/schemas/satellite.py` L335). -/
def cross (a b : V3) : V3 := ⟨a.y * b.z - a.z * b.y, a.z * b.x - a.x * b.z, a.x * b.y - a.y * b.x⟩

end V3

end Tatc

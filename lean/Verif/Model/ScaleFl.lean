import Verif.Model.VolumeQuadFl

/-!
# Model of the scalings of a mesh in floating point
-/

namespace MM

/-- A call of `scale`, `scalex`, `scaley` or `scalez` (mesh.py:1384-1459) with its factor. -/
inductive Scaling (K : Type*) where
  | all (alpha : K)
  | alongX (alpha : K)
  | alongY (alpha : K)
  | alongZ (alpha : K)

namespace Scaling

variable {K : Type*} [Field K] [LinearOrder K]

/-- The factor given. -/
def alpha : Scaling K → K
  | .all a => a
  | .alongX a => a
  | .alongY a => a
  | .alongZ a => a

/-- What a call makes of a row of `_vertices` (mesh.py:1395-1397, 1414-1416, 1433-1435, 1452-1454): the products are rounded. -/
def row (rnd : K → K) : Scaling K → V3 K → V3 K
  | .all a, v => ⟨rnd (v.x * a), rnd (v.y * a), rnd (v.z * a)⟩
  | .alongX a, v => ⟨rnd (v.x * a), v.y, v.z⟩
  | .alongY a, v => ⟨v.x, rnd (v.y * a), v.z⟩
  | .alongZ a, v => ⟨v.x, v.y, rnd (v.z * a)⟩

/-- A call (mesh.py:1384-1459); `none`: the assertion `0 < alpha` fails. Exact arithmetic is `rnd = id`. -/
def run (rnd : K → K) (s : Scaling K) (m : Mesh K) : Option (Mesh K) :=
  if 0 < s.alpha then some (m.mapVertices (s.row rnd)) else none

/-- Calls one after the other; the first failed assertion ends the sequence. -/
def runAll (rnd : K → K) (l : List (Scaling K)) (m : Mesh K) : Option (Mesh K) := l.foldlM (fun m s => s.run rnd m) m

end Scaling

end MM

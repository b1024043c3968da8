import Verif.Model.MirrorFl
import Verif.Model.ClipperFl

/-!
# Model of `symmetrize` in floating point
-/

namespace MM

variable {K : Type*} [Field K] [LinearOrder K]

/-- `symmetrize(plane)` before the merge (mesh.py:1853-1858) in floating point: the new rows are those of `Plane.reflectFl`, since the
expression is that of `mirror`. -/
def Mesh.symmetrizeRawFl (rnd : K → K) (dot : V3 K → V3 K → K) (p : Plane K) (m : Mesh K) : Mesh K :=
  ⟨m.vertices ++ m.vertices.map (p.reflectFl rnd dot), m.faces ++ m.faces.map (fun f => (f.map (· + m.nv)).flip)⟩

/-- `symmetrize(plane)` (mesh.py:1844-1866) in floating point: the tolerance of the merge is the literal `1e-8`, rounded. -/
def Mesh.symmetrizeFl (rnd : K → K) (dot : V3 K → V3 K → K) (srt : (ℕ → K) → List ℕ → List ℕ) (p : Plane K) (m : Mesh K) :
    Except PyErr (Mesh K) :=
  (Mesh.mergeDuplicatesFl rnd srt (rnd Mesh.defaultAtol) (m.symmetrizeRawFl rnd dot p)).map Prod.fst

end MM

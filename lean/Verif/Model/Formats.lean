import Verif.Model.Densities

/-!
# Model of the choice of the loader and of the writer (mmio.py) and of the format of a file name (cli.py)
-/

namespace MM

/-- The pairs `load_X`, `write_X` of mmio.py. -/
inductive Fmt where
  | mar | gdf | inp | dat | hst | nat | msh | rad | stl | vtu | vtp | vtk | tec | med | wrl | nem | pnl | obj
deriving DecidableEq, Repr

/-- `extension_dict` (mmio.py:1822-1854): keyword, reader, writer. -/
def extensionDict : List (String × (Fmt × Fmt)) :=
  [("mar", .mar, .mar), ("nemoh", .mar, .mar), ("wamit", .gdf, .gdf), ("gdf", .gdf, .gdf),
   ("diodore-inp", .inp, .inp), ("inp", .inp, .inp), ("diodore-dat", .dat, .dat), ("hydrostar", .hst, .hst),
   ("hst", .hst, .hst), ("natural", .nat, .nat), ("nat", .nat, .nat), ("gmsh", .msh, .msh), ("msh", .msh, .msh),
   ("rad", .rad, .rad), ("radioss", .rad, .rad), ("stl", .stl, .stl), ("vtu", .vtu, .vtu), ("vtp", .vtp, .vtp),
   ("paraview-legacy", .vtk, .vtk), ("vtk", .vtk, .vtk), ("tecplot", .tec, .tec), ("tec", .tec, .tec),
   ("med", .med, .med), ("salome", .med, .med), ("vrml", .wrl, .wrl), ("wrl", .wrl, .wrl), ("nem", .nem, .nem),
   ("nemoh_mesh", .nem, .nem), ("pnl", .pnl, .pnl), ("hams", .pnl, .pnl), ("obj", .obj, .obj)]

/-- `extension_dict[ext]`; `None` for a missing key. -/
def extensionOf (ext : Str) : Option (Fmt × Fmt) :=
  (extensionDict.find? (fun e => e.1.toList == ext)).map Prod.snd

/-- `know_extension` (mmio.py:1819-1820). -/
def knowExtension (ext : Str) : Bool := (extensionOf ext).isSome

/-- The writers that only raise `NotImplementedError` (mmio.py:1698-1700, 1763-1777). -/
def writerImplemented : Fmt → Bool
  | .rad | .inp | .msh | .med | .wrl => false
  | _ => true

/-- `load_mesh` (mmio.py:23-50). `load` runs a loader on a file. -/
def loadMesh {α : Type*} (isFile : Str → Bool) (load : Fmt → Str → Except PyErr α) (filename fmt : Str) :
    Except PyErr α :=
  if isFile filename then
    match extensionOf fmt with
    | none => .error .ioError
    | some p => load p.1 filename
  else .error .ioError

/-- What `write_mesh` (mmio.py:1146-1167) does: the writer that is run, or the exception. -/
def writeMesh (fmt : Str) : Except PyErr Fmt :=
  match extensionOf fmt with
  | none => .error .ioError
  | some p => if writerImplemented p.2 then .ok p.2 else .error .notImplemented

/-- `os.path.splitext` on a POSIX path. -/
def splitExt (p : Str) : Str × Str :=
  let r := p.reverse
  let stop := fun c : Char => c != '.' && c != '/'
  match r.dropWhile stop with
  | '.' :: stem =>
    if (stem.takeWhile (fun c => c != '/')).any (fun c => c != '.') then (stem.reverse, '.' :: (r.takeWhile stop).reverse)
    else (p, [])
  | _ => (p, [])

/-- `os.path.splitext(p)[1][1:].lower()` (cli.py:432-433, 1014, 1018); `lower` is `str.lower`. -/
def extLower (lower : Str → Str) (p : Str) : Str := lower (splitExt p).2.tail

end MM

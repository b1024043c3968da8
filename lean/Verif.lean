import Verif.Model.Vec
import Verif.Model.Merge
import Verif.Model.Mesh
import Verif.Spec.Mesh
import Verif.Proofs.Merge
import Verif.Proofs.MeshIndex
import Verif.Props.Merge
import Verif.Props.MeshIndex
import Verif.Proofs.Vec
import Verif.Model.FaceProps
import Verif.Spec.Closed
import Verif.Proofs.FaceProps
import Verif.Props.Geometry
import Verif.Model.Rotations
import Verif.Proofs.Rotations
import Verif.Props.Rotations
import Verif.Spec.Witness
import Verif.Props.Motion
import Verif.Model.Plane
import Verif.Props.Plane
import Verif.Spec.Integrals
import Verif.Proofs.Integrals
import Verif.Props.Integrals
import Verif.Model.Inertia
import Verif.Props.Inertia
import Verif.Spec.Shapes
import Verif.Model.Shapes
import Verif.Proofs.Shapes
import Verif.Props.Shapes
import Verif.Model.Connectivity
import Verif.Spec.Connectivity
import Verif.Proofs.Connectivity
import Verif.Props.Connectivity
import Verif.Model.HealNormals
import Verif.Proofs.HealNormals
import Verif.Props.HealNormals
import Verif.Model.Cache
import Verif.Spec.Cache
import Verif.Props.Cache
import Verif.Props.Heal
import Verif.Model.Clipper
import Verif.Spec.Clipper
import Verif.Proofs.Clipper
import Verif.Proofs.ClipTable
import Verif.Proofs.ClipLoop
import Verif.Proofs.ClipGeom
import Verif.Props.Clipper
import Verif.Proofs.ClipRegion
import Verif.Props.ClipFace
import Verif.Proofs.ClipLines
import Verif.Props.ClipLines
import Verif.Model.Hydrostatics
import Verif.Spec.Hydrostatics
import Verif.Props.Hydrostatics
import Verif.Props.Equilibrium
import Verif.Model.HydrostaticsOld
import Verif.Props.HydrostaticsOld
import Verif.Proofs.ClipMap
import Verif.Props.ClipMotion
import Verif.Model.Densities
import Verif.Props.Densities
import Verif.Model.Formats
import Verif.Props.Formats
import Verif.Model.Cli
import Verif.Props.Cli
import Verif.Props.CliPlanes
import Verif.Props.CliHydro
import Verif.Props.CliInertia
import Verif.Model.Text
import Verif.Proofs.Text
import Verif.Model.Mmio
import Verif.Spec.Io
import Verif.Proofs.Io
import Verif.Props.Io
import Verif.Props.IoMar
import Verif.Props.IoPnl
import Verif.Props.IoGdf
import Verif.Model.MmioIds
import Verif.Props.IoIds
import Verif.Spec.ClipBody
import Verif.Spec.ClipBand
import Verif.Proofs.ClipPlanned
import Verif.Proofs.ClipChain
import Verif.Props.ClipBody
import Verif.Props.CliOutput
import Verif.Proofs.ClipConvex
import Verif.Props.ClipConvex
import Verif.Spec.Pressure
import Verif.Proofs.RefInt
import Verif.Proofs.ClipAdditive
import Verif.Proofs.ClipSection
import Verif.Proofs.ClipBand
import Verif.Proofs.Pressure
import Verif.Proofs.RealMesh
import Verif.Props.Archimedes
import Verif.Spec.Stiffness
import Verif.Proofs.WetDeriv
import Verif.Proofs.Stiffness
import Verif.Props.Stiffness
import Verif.Spec.Loads
import Verif.Props.EquilibrateOld
import Verif.Props.EquilibrateAfter
import Verif.Props.CliEdit
import Verif.Props.GdfLayout
import Verif.Props.HydroMotion
import Verif.Props.ImmersedBody
import Verif.Props.Waterline
import Verif.Model.Regex
import Verif.Model.MmioRegex
import Verif.Proofs.Regex
import Verif.Proofs.RegexNum
import Verif.Props.IoHst
import Verif.Props.IoTec
import Verif.Props.IoDat
import Verif.Model.ReportCorr
import Verif.Props.Corrections
import Verif.Model.Report
import Verif.Spec.Report
import Verif.Props.Report
import Verif.Model.ReportOld
import Verif.Props.ReportOld
import Verif.Spec.Halves
import Verif.Proofs.ConeInt
import Verif.Proofs.ConeCut
import Verif.Proofs.ShellCut
import Verif.Props.Halves
import Verif.Props.WettedArea
import Verif.Model.ClipperObject
import Verif.Props.ClipperObject
import Verif.Props.ClipSection
import Verif.Props.ClipOnPlane
import Verif.Props.ClipBand
import Verif.Props.Returns
import Verif.Props.ReturnsBand
import Verif.Model.MmioExport
import Verif.Spec.Exchange
import Verif.Props.Exchange
import Verif.Model.MmioMsh
import Verif.Spec.Msh
import Verif.Proofs.RegexLazy
import Verif.Props.IoMsh
import Verif.Model.MmioRad
import Verif.Spec.Rad
import Verif.Props.IoRad
import Verif.Model.MmioLib
import Verif.Spec.Lib
import Verif.Props.IoLib
import Verif.Model.MmioInp
import Verif.Spec.Inp
import Verif.Props.IoInp
import Verif.Model.Alias
import Verif.Spec.Alias
import Verif.Proofs.Alias
import Verif.Proofs.AliasStep
import Verif.Proofs.AliasWorld
import Verif.Props.Alias
import Verif.Model.ForcesOld
import Verif.Props.ForcesOld
import Verif.Props.MeshStr
import Verif.Props.Session
import Verif.Props.Witnesses
import Verif.Props.AxisAngle
import Verif.Props.IoWrl
import Verif.Props.AtCog
import Verif.Model.MergeFl
import Verif.Spec.Rounding
import Verif.Proofs.Rounding
import Verif.Props.MergeFl
import Verif.Model.PlaneFl
import Verif.Proofs.PlaneFl
import Verif.Props.PlaneFl
import Verif.Proofs.MergeStable
import Verif.Props.MergeStable
import Verif.Model.ClipperFl
import Verif.Proofs.ClipperFl
import Verif.Props.ClipperFl
import Verif.Spec.ConeVolume
import Verif.Props.ClipFlVolume
import Verif.Proofs.ClipTol
import Verif.Proofs.TolFlux
import Verif.Props.TolVolume
import Verif.Proofs.TolArea
import Verif.Props.TolWetted
import Verif.Model.InertiaStr
import Verif.Spec.InertiaStr
import Verif.Props.InertiaStr
import Verif.Props.CliInput
import Verif.Model.VolumeFl
import Verif.Spec.VolumeFl
import Verif.Proofs.VolumeFl
import Verif.Props.VolumeFl
import Verif.Model.VolumeQuadFl
import Verif.Proofs.VolumeQuadFl
import Verif.Props.VolumeQuadFl
import Verif.Spec.AreaFl
import Verif.Model.AreaFl
import Verif.Props.AreaFl
import Verif.Model.InertiaQuadFl
import Verif.Proofs.InertiaQuadFl
import Verif.Props.InertiaQuadFl
import Verif.Model.WaterplaneFl
import Verif.Proofs.WaterplaneFl
import Verif.Props.WaterplaneFl
import Verif.Model.HydroFl
import Verif.Props.HydroFl
import Verif.Spec.ConversionSci
import Verif.Proofs.ConversionSci
import Verif.Props.ConversionSci
import Verif.Spec.ConversionAny
import Verif.Props.ConversionAny
import Verif.Spec.Watertight
import Verif.Proofs.Watertight
import Verif.Props.Watertight
import Verif.Spec.RoundTrip
import Verif.Spec.Conversion
import Verif.Props.RoundTrip
import Verif.Props.Conversion
import Verif.Model.MovesFl
import Verif.Proofs.MovesFl
import Verif.Props.MovesFl
import Verif.Model.ShellFl
import Verif.Props.ShellFl
import Verif.Model.TransportFl
import Verif.Props.TransportFl
import Verif.Spec.MovesBody
import Verif.Props.MovesBodyFl
import Verif.Props.MovesShellFl
import Verif.Model.PlaneStr
import Verif.Spec.PlaneStr
import Verif.Props.PlaneStr
import Verif.Model.ScaleFl
import Verif.Spec.ScaleFl
import Verif.Props.ScaleFl
import Verif.Model.MirrorFl
import Verif.Props.MirrorFl
import Verif.Model.SymmetrizeFl
import Verif.Props.SymmetrizeFl
import Verif.Model.PlaneNewFl
import Verif.Spec.PlaneNewFl
import Verif.Props.PlaneNewFl
import Verif.Props.SymmetrizeVolume
import Verif.Props.SymmetrizeInertia
import Verif.Props.SymmetrizeShell
import Verif.Props.SymmetrizeHydro

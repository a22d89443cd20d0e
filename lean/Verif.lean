import Verif.Props.Dimension
import Verif.Props.Grid
import Verif.Props.Gauge
import Verif.Props.State
import Verif.Props.BC
import Verif.Props.Evolve
import Verif.Props.EvolveDt
import Verif.Props.Controller
import Verif.Props.ControllerEvolve
import Verif.Props.Limiters
import Verif.Props.Classic1
import Verif.Props.Advection
import Verif.Props.LimitersRest
import Verif.Props.ClassicStep
import Verif.Props.ClassicSetup
import Verif.Props.Util
import Verif.Props.Weno
import Verif.Props.SharpRK
import Verif.Props.SharpLMM
import Verif.Props.SharpHistory
import Verif.Props.SharpRunK3
import Verif.Props.SharpFlux
import Verif.Props.SharpStep
import Verif.Props.SharpAgree
import Verif.Props.SharpSetup
import Verif.Props.Unsplit2
import Verif.Props.Unsplit3
import Verif.Props.Ascii
import Verif.Props.Binary
import Verif.Props.Gauges
import Verif.Props.GaugeRecord
import Verif.Props.Petclaw
import Verif.Props.Vtk
import Verif.Props.Parallel
import Verif.Props.ParallelSplit
import Verif.Props.CornerTransport
import Verif.Spec.SecondOrder
import Verif.Props.SecondOrder
import Verif.Props.SecondOrder2
import Verif.Props.SecondOrder3
import Verif.Model.SharpTime
import Verif.Spec.SharpTime
import Verif.Lemmas.SharpTime
import Verif.Props.SharpTime
import Verif.Lemmas.SharpWithin
import Verif.Props.SharpWithin
import Verif.Model.SharpRecon
import Verif.Spec.Tvd
import Verif.Props.Tvd
import Verif.Props.SharpChar
import Verif.Props.WenoWeights
import Verif.Props.SharpFirst
import Verif.Spec.Runs
import Verif.Lemmas.Runs
import Verif.Props.Runs
import Verif.Props.RunValues
import Verif.Props.SharpFixed
import Verif.Props.RunExact
import Verif.Model.WenoTables
import Verif.Spec.WenoOrder
import Verif.Lemmas.WenoTables
import Verif.Lemmas.WenoStencil
import Verif.Lemmas.WenoOrder
import Verif.Props.WenoOrder
import Verif.Model.Validity
import Verif.Spec.Validity
import Verif.Props.Validity
import Verif.Model.Solution
import Verif.Props.Solution
import Verif.Model.Hdf5
import Verif.Spec.Hdf5
import Verif.Lemmas.Hdf5
import Verif.Props.Hdf5
import Verif.Spec.SharpAffine
import Verif.Lemmas.SharpAffine
import Verif.Lemmas.SharpPositive
import Verif.Props.SharpAffine
import Verif.Spec.Solution
import Verif.Spec.Symmetry
import Verif.Lemmas.Simulation
import Verif.Props.Translation
import Verif.Props.TranslationSplit3
import Verif.Lemmas.Mirror
import Verif.Props.Mirror
import Verif.Props.Images
import Verif.Model.GridGhost
import Verif.Props.GridGhost
import Verif.Lemmas.Turn
import Verif.Lemmas.Square
import Verif.Props.Square
import Verif.Lemmas.SplitMirror
import Verif.Props.SplitMirror
import Verif.Model.Sweeps2
import Verif.Props.Sweeps2
import Verif.Model.SharpStages
import Verif.Lemmas.SharpStages
import Verif.Lemmas.SharpMap
import Verif.Spec.SharpPair
import Verif.Lemmas.SharpPair
import Verif.Model.SharpGrid
import Verif.Spec.SharpGrid
import Verif.Lemmas.WideStencil
import Verif.Lemmas.SharpShift
import Verif.Lemmas.SharpPyNear
import Verif.Lemmas.SharpRow
import Verif.Lemmas.SharpKernels
import Verif.Props.SharpParallel
import Verif.Props.SharpTranslate
import Verif.Model.PetscIO
import Verif.Model.PetscSchedule
import Verif.Spec.PetscIO
import Verif.Lemmas.PetscIO
import Verif.Props.PetscIO
import Verif.Props.PetscSchedule
import Verif.Props.GaugesBinary
import Verif.Model.Spmd
import Verif.Lemmas.Spmd
import Verif.Props.Spmd
import Verif.Props.Forest
import Verif.Props.Units
import Verif.Props.Units2
import Verif.Props.Units3
import Verif.Props.Walls
import Verif.Props.Superposition
import Verif.Props.Superposition3
import Verif.Props.Verify
import Verif.Props.GaugeConvert
import Verif.Props.CflObj
import Verif.Lemmas.Turn3
import Verif.Lemmas.Cube
import Verif.Props.Cube
import Verif.Props.Walls3
import Verif.Lemmas.CubeSplit
import Verif.Props.CubeSplit
import Verif.Spec.SharpMirror
import Verif.Lemmas.SharpMirror
import Verif.Lemmas.SharpImage
import Verif.Props.SharpMirror
import Verif.Spec.SharpWalls
import Verif.Lemmas.SharpWalls
import Verif.Props.SharpWalls
import Verif.Spec.SharpUnits
import Verif.Lemmas.SharpClock
import Verif.Lemmas.SharpUnits
import Verif.Props.SharpUnits
import Verif.Spec.Status
import Verif.Props.Status
import Verif.Spec.Unfold
import Verif.Lemmas.Unfold
import Verif.Lemmas.SharpUnfold
import Verif.Props.Unfold
import Verif.Props.UnfoldSplit
import Verif.Props.UnfoldSplit3
import Verif.Model.CompileLibrary
import Verif.Spec.CompileLibrary
import Verif.Props.CompileLibrary
import Verif.Model.Serialized
import Verif.Spec.Serialized
import Verif.Props.Serialized
import Verif.Spec.SharpUniform
import Verif.Props.SharpUniform
import Verif.Model.SharpGridPy
import Verif.Props.SharpPython
import Verif.Props.SharpPyMirror
import Verif.Props.SharpPyFirstMirror
import Verif.Props.SharpPyUnfold
import Verif.Props.SharpPyUnfoldRun
import Verif.Props.SharpPyUnits
import Verif.Props.SharpPyWalls

import Verif.Props.Correlation
import Verif.Props.Grids
import Verif.Props.Peaks
import Verif.Props.Fit
import Verif.Props.Roots
import Verif.Props.Skip
import Verif.Props.TGrid
import Verif.Props.Species
import Verif.Props.Msd
import Verif.Props.Overlap
import Verif.Props.Chi4
import Verif.Props.GrHist
import Verif.Props.LinkedCells
import Verif.Props.Gr
import Verif.Props.Volume
import Verif.Props.GrPartial
import Verif.Props.GrCells
import Verif.Props.GrFilter
import Verif.Props.GrLimits
import Verif.Model.Fourier
import Verif.Spec.Shells
import Verif.Lemmas.Expo
import Verif.Lemmas.Shells
import Verif.Props.Expo
import Verif.Props.Shells
import Verif.Props.KSetup
import Verif.Props.KShared
import Verif.Model.Sk
import Verif.Spec.Sk
import Verif.Lemmas.Sk
import Verif.Props.Sk
import Verif.Props.SkPartial
import Verif.Props.SkFast
import Verif.Props.KCopy
import Verif.Props.CellVar
import Verif.Model.Fkt
import Verif.Spec.Fkt
import Verif.Lemmas.Fkt
import Verif.Lemmas.Fskt
import Verif.Lemmas.Fcoh
import Verif.Props.Fskt
import Verif.Props.Fkt
import Verif.Model.Text
import Verif.Model.Object
import Verif.Model.Output
import Verif.Model.Api
import Verif.Props.Filters
import Verif.Props.Weights
import Verif.Props.Partials
import Verif.Props.Names
import Verif.Props.Output
import Verif.Props.Api
import Verif.Model.Neighbors
import Verif.Model.BondAngle
import Verif.Spec.Neighbors
import Verif.Spec.BondAngle
import Verif.Lemmas.Neighbors
import Verif.Lemmas.BondAngle
import Verif.Props.Neighbors
import Verif.Props.BondAngle
import Verif.Model.Ik
import Verif.Model.Susceptibility
import Verif.Spec.Ik
import Verif.Props.Ik
import Verif.Props.Susceptibility
import Verif.Model.Analysis
import Verif.Props.Analysis
import Verif.Props.Stress
import Verif.Props.FilterTag
import Verif.Props.Align
import Verif.Model.SkAgain
import Verif.Props.SkAgain
import Verif.Lemmas.Fold
import Verif.Model.GrAgain
import Verif.Props.GrAgain
import Verif.Model.Arrays
import Verif.Props.Arrays
import Verif.Props.OverlapImage
import Verif.Lemmas.ArithHom
import Verif.Props.Symmetry
import Verif.Props.Additive
import Verif.Props.Reversal
import Verif.Props.MsdGrid
import Verif.Model.Write
import Verif.Model.S4kt
import Verif.Model.Runs
import Verif.Model.Memory
import Verif.Props.Write
import Verif.Props.Files
import Verif.Props.FourierSym
import Verif.Props.S4kt
import Verif.Props.Gaussian
import Verif.Props.GrOpen
import Verif.Props.FktGrid
import Verif.Props.Runs
import Verif.Props.Memory
import Verif.Props.FourierTime
import Verif.Props.ArraysFull
import Verif.Props.Header
import Verif.Props.GrOrder
import Verif.Props.SkOrder
import Verif.Props.Kernels
import Verif.Props.Relax
import Verif.Props.KObject
import Verif.Props.KSubset
import Verif.Props.KReport
import Verif.Props.KAssign
import Verif.Props.GrUnits
import Verif.Props.KUnits
import Verif.Props.GrAxes
import Verif.Props.BaUnits
import Verif.Props.BaLabels
import Verif.Props.BaImages
import Verif.Props.Parts
import Verif.Props.Chi4Sym
import Verif.Props.AnalysisUnits
import Verif.Props.SelfDistinct
import Verif.Props.Inequalities
import Verif.Props.ApiArgs
import Verif.Props.Bounds
import Verif.Props.IkSym
import Verif.Props.SusBounds
import Verif.Props.StressSym
import Verif.Props.BaFiles
import Verif.Props.WeightRead
import Verif.Props.WeightAgain
import Verif.Props.WeightFiles
import Verif.Props.SkWeight
import Verif.Props.Acf
import Verif.Props.SpeciesFilter
import Verif.Props.SpeciesIds
import Verif.Props.FktPartial
import Verif.Props.BaParts
import Verif.Props.BaAgain
import Verif.Props.FktAgain
import Verif.Props.GrBatch
import Verif.Props.BaPartial
import Verif.Props.SkPairs
import Verif.Props.GrSupport
import Verif.Props.GrMerge
import Verif.Props.BaMerge
import Verif.Props.TSubset
import Verif.Props.OutputPartial
import Verif.Props.Help
import Verif.Props.AcfScript
import Verif.Props.Progress
import Verif.Props.Show
import Verif.Props.SkCrystal
import Verif.Props.Replica
import Verif.Props.GrReplica
import Verif.Props.Chi4Run
import Verif.Model.FilterEval
import Verif.Props.SkReplica
import Verif.Props.FilterEval
import Verif.Props.Rest
import Verif.Props.Uniform
import Verif.Props.SkForm
import Verif.Props.FktReplica
import Verif.Model.Session
import Verif.Props.Session
import Verif.Props.FilterWeight
import Verif.Props.Commands
import Verif.Props.FktSubset
import Verif.Model.CommandsK
import Verif.Model.CommandsGr
import Verif.Model.CommandsIk
import Verif.Model.CommandsBa
import Verif.Model.CommandsBaPartial
import Verif.Props.CommandsK
import Verif.Props.CommandsSk
import Verif.Props.CommandsTime
import Verif.Props.CommandsGr
import Verif.Props.CommandsIk
import Verif.Props.CommandsBa
import Verif.Props.CommandsBaPartial
import Verif.Props.CommandsPartial
import Verif.Props.CommandsGrPartial
import Verif.Props.CommandsSkPartial
import Verif.Props.CommandsFsPartial
import Verif.Props.CommandsFkPartial
import Verif.Props.CommandsAlpha
import Verif.Props.CommandsChi4
import Verif.Props.Cases

import Verif.Props.BaseMaps
import Verif.Model.ConstraintFast
import Verif.Lemmas.ConstraintFast
import Verif.Model.RawBaseMap
import Verif.Lemmas.RawBaseMap
import Verif.Model.Caches
import Verif.Lemmas.Caches
import Verif.Props.RawBaseMaps
import Verif.Props.Utils
import Verif.Props.Curves
import Verif.Props.Moments
import Verif.Props.Subdivision
import Verif.Props.Junctions
import Verif.Props.Zoo
import Verif.Props.Fuzzy
import Verif.Props.Templates
import Verif.Model.FacetSubset
import Verif.Spec.Subsets
import Verif.Lemmas.Points
import Verif.Lemmas.Facets
import Verif.Props.Subsets
import Verif.Lemmas.ChainCode
import Verif.Props.ChainCode
import Verif.Spec.Paths
import Verif.Lemmas.Paths
import Verif.Props.Paths
import Verif.Model.Dict
import Verif.Lemmas.Dict
import Verif.Model.CubePathTree
import Verif.Spec.CubePathTree
import Verif.Lemmas.CubePathTree
import Verif.Lemmas.CubePathTreeB
import Verif.Lemmas.CubePathTreeE
import Verif.Props.CubePathTree
import Verif.Model.PathsGen
import Verif.Spec.PathsGen
import Verif.Lemmas.PathsGen
import Verif.Lemmas.PathsGenStd
import Verif.Props.PathsGen
import Verif.Model.Heap
import Verif.Spec.Heap
import Verif.Lemmas.Heap
import Verif.Props.Heap
import Verif.Model.SAT
import Verif.Spec.SAT
import Verif.Lemmas.SAT
import Verif.Lemmas.SATB
import Verif.Props.SAT
import Verif.Model.Dilation
import Verif.Spec.Dilation
import Verif.Lemmas.Config
import Verif.Lemmas.Cover
import Verif.Lemmas.Attained
import Verif.Lemmas.Pieces
import Verif.Lemmas.Bounds
import Verif.Lemmas.Estimable
import Verif.Lemmas.Pairs
import Verif.Lemmas.FirstPairs
import Verif.Lemmas.EstimableOf
import Verif.Lemmas.Tree
import Verif.Lemmas.Regular
import Verif.Lemmas.RegularB
import Verif.Lemmas.Termination
import Verif.Lemmas.MaxDepth
import Verif.Props.Dilation
import Verif.Props.Regular
import Verif.Lemmas.Bisect
import Verif.Props.Bisect
import Verif.Lemmas.FuzzyLoop
import Verif.Lemmas.FuzzyTerm
import Verif.Props.FuzzyEstimator
import Verif.Lemmas.FuzzyMono
import Verif.Lemmas.Sequence
import Verif.Lemmas.SequenceTerm
import Verif.Props.Sequence
import Verif.Lemmas.CacheSim
import Verif.Props.Cache
import Verif.Model.Gates
import Verif.Spec.Gates
import Verif.Lemmas.GatesGen
import Verif.Lemmas.GatesCheck
import Verif.Lemmas.GatesAll
import Verif.Lemmas.GatesComplete
import Verif.Lemmas.GatesFinal
import Verif.Props.Gates
import Verif.Model.GeneratePaths
import Verif.Model.FacetGates
import Verif.Spec.GeneratePaths
import Verif.Props.GeneratePaths
import Verif.Lemmas.Reparam
import Verif.Model.Search
import Verif.Spec.Search
import Verif.Lemmas.Search
import Verif.Props.Search
import Verif.Props.PlaneGates
import Verif.Props.Interior
import Verif.Model.Texts
import Verif.Lemmas.Texts
import Verif.Lemmas.CurveTexts
import Verif.Props.Texts
import Verif.Spec.FacetPaths
import Verif.Lemmas.FacetAct
import Verif.Lemmas.FacetPaths
import Verif.Lemmas.FacetPathsB
import Verif.Lemmas.FacetParent
import Verif.Lemmas.StdLoop
import Verif.Lemmas.TuplesGen
import Verif.Lemmas.FacetStd
import Verif.Props.FacetPaths
import Verif.Lemmas.FacetGatesGen
import Verif.Lemmas.FacetComplete
import Verif.Lemmas.FacetFinal
import Verif.Props.FacetGates
import Verif.Model.ZooData
import Verif.Lemmas.Depth
import Verif.Props.ZooData
import Verif.Model.YeProof
import Verif.Spec.YeProof
import Verif.Lemmas.YeProof
import Verif.Lemmas.YeRigid
import Verif.Lemmas.YeSame
import Verif.Props.YeProof
import Verif.Model.Plots
import Verif.Spec.Plots
import Verif.Lemmas.Plots
import Verif.Props.Plots
import Verif.Lemmas.DilCert
import Verif.Lemmas.DilCheck
import Verif.Lemmas.DilFast
import Verif.Lemmas.DilRow
import Verif.Spec.ZooDilation
import Verif.Lemmas.ZooDil
import Verif.Lemmas.ZooDil.Plane
import Verif.Lemmas.ZooDil.HaverkortA26
import Verif.Lemmas.ZooDil.HaverkortF
import Verif.Lemmas.ZooDil.Tokarev
import Verif.Lemmas.ZooDil.Neptunus
import Verif.Lemmas.ZooDil.Luna
import Verif.Lemmas.ZooDil.Iupiter
import Verif.Lemmas.ZooDil.Spring
import Verif.Lemmas.ZooDil.Best3dL1
import Verif.Lemmas.ZooDil.FacetGated4d
import Verif.Lemmas.ZooDilRight
import Verif.Props.ZooDilation
import Verif.Lemmas.Allowed
import Verif.Lemmas.BaseMap
import Verif.Lemmas.Check
import Verif.Lemmas.CurvesAct
import Verif.Lemmas.CurvesBasic
import Verif.Lemmas.DeepSpec
import Verif.Lemmas.Faces
import Verif.Lemmas.Forget
import Verif.Lemmas.Fuzzy
import Verif.Lemmas.Gates
import Verif.Lemmas.Interior
import Verif.Lemmas.Itertools
import Verif.Lemmas.Junctions
import Verif.Lemmas.JunctionsB
import Verif.Lemmas.Limit
import Verif.Lemmas.ListM
import Verif.Lemmas.Memo
import Verif.Lemmas.MinBound
import Verif.Lemmas.MinCert
import Verif.Lemmas.MinEnum
import Verif.Lemmas.Order
import Verif.Lemmas.PlaneGates
import Verif.Lemmas.Possible
import Verif.Lemmas.PossibleB
import Verif.Lemmas.Realize
import Verif.Lemmas.Results
import Verif.Lemmas.ResultsNorm
import Verif.Lemmas.Subdivision
import Verif.Lemmas.Templates
import Verif.Lemmas.Utils
import Verif.Lemmas.UtilsB
import Verif.Lemmas.Valid
import Verif.MinCerts.Curves
import Verif.MinCerts.Diag3
import Verif.MinCerts.Diag5a
import Verif.MinCerts.Dil.Mono1
import Verif.MinCerts.Dil.Mono2
import Verif.MinCerts.Med2
import Verif.MinCerts.Med3
import Verif.MinCerts.Med4
import Verif.MinCerts.Med5
import Verif.MinCerts.Med6a
import Verif.MinCerts.Med6aE0
import Verif.MinCerts.Med6aE1
import Verif.MinCerts.Med6aE2
import Verif.MinCerts.Med6aE3
import Verif.MinCerts.Med6aTab
import Verif.MinCerts.Side2
import Verif.MinCerts.Side3
import Verif.MinCerts.Side4
import Verif.MinCerts.Side4a
import Verif.MinCerts.Side5a
import Verif.MinCerts.Side5y
import Verif.MinCerts.Side6a
import Verif.MinCerts.Side6aE0
import Verif.MinCerts.Side6aE1
import Verif.MinCerts.Side6aL1
import Verif.MinCerts.Side6aLinf
import Verif.MinCerts.Side6aTab
import Verif.Model.BaseMap
import Verif.Model.ChainCode
import Verif.Model.Curves
import Verif.Model.FuzzyCurves
import Verif.Model.Itertools
import Verif.Model.Junctions
import Verif.Model.Memo
import Verif.Model.Paths
import Verif.Model.Subsets
import Verif.Model.Utils
import Verif.Model.Zoo
import Verif.Props.Results
import Verif.Spec.Curves
import Verif.Spec.Fuzzy
import Verif.Spec.Geometry
import Verif.Spec.Junctions
import Verif.Spec.Results
import Verif.Lemmas.MinTwo
import Verif.Lemmas.BiGates
import Verif.Lemmas.Results2
import Verif.MinCerts.Bi2a
import Verif.MinCerts.Bi2b
import Verif.MinCerts.Bi2c
import Verif.MinCerts.BiGates
import Verif.MinCerts.Curves2
import Verif.MinCerts.Dil.Bi
import Verif.Spec.Bifractals
import Verif.Props.Bifractals
import Verif.Props.BifractalGates
import Verif.Spec.OnePattern
import Verif.Lemmas.OnePattern
import Verif.MinCerts.Bi3
import Verif.MinCerts.Curves3
import Verif.MinCerts.Dil.Tri
import Verif.Props.Bifractals3
import Verif.Lemmas.MinFast
import Verif.Lemmas.MinRun
import Verif.Lemmas.MinPairs
import Verif.Spec.YeLog
import Verif.MinCerts.CurvesYeNext
import Verif.MinCerts.Dil.YeNext
import Verif.MinCerts.CurvesLog
import Verif.MinCerts.Dil.Log
import Verif.Props.YeLog
import Verif.Model.Heapq
import Verif.Props.Heapq
import Verif.Spec.PlaneGates
import Verif.Props.GatesCount

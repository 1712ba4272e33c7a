import Verif.Data.Directions0
import Verif.Data.Directions1
import Verif.Data.Directions2
import Verif.Data.Directions3
import Verif.Data.Directions4
import Verif.Data.Directions5
import Verif.Data.Directions6
import Verif.Data.Directions7
import Verif.Data.Directions8
import Verif.Lemmas.Alternate
import Verif.Lemmas.ArraySplit
import Verif.Lemmas.Backfit
import Verif.Lemmas.Bootstrap
import Verif.Lemmas.BootstrapChar
import Verif.Lemmas.BootstrapLimit
import Verif.Lemmas.Cells
import Verif.Lemmas.Cli
import Verif.Lemmas.CliWords
import Verif.Lemmas.Combos
import Verif.Lemmas.CosineBasis
import Verif.Lemmas.Cov
import Verif.Lemmas.Coverage
import Verif.Lemmas.CvmIdentity
import Verif.Lemmas.CvmRanks
import Verif.Lemmas.DMorph
import Verif.Lemmas.DMorphCopies
import Verif.Lemmas.DMorphRank
import Verif.Lemmas.DeltaClasses
import Verif.Lemmas.DerivMeasure
import Verif.Lemmas.DesignEval
import Verif.Lemmas.DiscKernels
import Verif.Lemmas.DiscLimit
import Verif.Lemmas.DiscMeaning
import Verif.Lemmas.DiscPositive
import Verif.Lemmas.Discrepancy
import Verif.Lemmas.FastSobol
import Verif.Lemmas.FixedResamples
import Verif.Lemmas.Float
import Verif.Lemmas.FloatCount
import Verif.Lemmas.FloatDgsm
import Verif.Lemmas.FloatDiscrepancy
import Verif.Lemmas.FloatError
import Verif.Lemmas.FloatExcess
import Verif.Lemmas.FloatFast
import Verif.Lemmas.FloatFracFact
import Verif.Lemmas.FloatLatin
import Verif.Lemmas.FloatLevels
import Verif.Lemmas.FloatMorris
import Verif.Lemmas.FloatMorrisStats
import Verif.Lemmas.FloatScale
import Verif.Lemmas.FloatSobol
import Verif.Lemmas.FloatSum
import Verif.Lemmas.Fourier
import Verif.Lemmas.Frequency
import Verif.Lemmas.GaussMoments
import Verif.Lemmas.GroupStudent
import Verif.Lemmas.Groups
import Verif.Lemmas.Hadamard
import Verif.Lemmas.HarmonicLimit
import Verif.Lemmas.Hoeffding
import Verif.Lemmas.Ishigami
import Verif.Lemmas.LatinDesign
import Verif.Lemmas.LatinMean
import Verif.Lemmas.LatinPairs
import Verif.Lemmas.LawRows
import Verif.Lemmas.ListAux
import Verif.Lemmas.MorrisAnalyze
import Verif.Lemmas.MorrisMean
import Verif.Lemmas.MorrisOpt
import Verif.Lemmas.OakleyTable
import Verif.Lemmas.Poincare
import Verif.Lemmas.PrimPoly
import Verif.Lemmas.PrimSlices
import Verif.Lemmas.QuadVariance
import Verif.Lemmas.QuasiIndex
import Verif.Lemmas.QuasiMean
import Verif.Lemmas.QuotientCoverage
import Verif.Lemmas.RankAlternate
import Verif.Lemmas.RankSign
import Verif.Lemmas.RankUniform
import Verif.Lemmas.RatioCoverage
import Verif.Lemmas.Resample
import Verif.Lemmas.Ridge
import Verif.Lemmas.Saltelli
import Verif.Lemmas.SampleFile
import Verif.Lemmas.SampleFileText
import Verif.Lemmas.Scale
import Verif.Lemmas.ShiftRec
import Verif.Lemmas.SobolConf
import Verif.Lemmas.SobolExpect
import Verif.Lemmas.SobolInfluence
import Verif.Lemmas.SobolMean
import Verif.Lemmas.SobolNet
import Verif.Lemmas.SobolRec
import Verif.Lemmas.SobolRows
import Verif.Lemmas.SobolSeq
import Verif.Lemmas.Stats
import Verif.Lemmas.Strided
import Verif.Lemmas.StudentLimit
import Verif.Lemmas.StudentMono
import Verif.Lemmas.StudentRate
import Verif.Lemmas.StudentTwo
import Verif.Lemmas.Svd
import Verif.Lemmas.Tactics
import Verif.Lemmas.TensorSum
import Verif.Lemmas.TorusEffects
import Verif.Lemmas.TorusPoly
import Verif.Lemmas.TorusProduct
import Verif.Lemmas.TorusSpectrum
import Verif.Lemmas.WidthCoverage
import Verif.Lemmas.WidthLimits
import Verif.Lemmas.WrapDisc
import Verif.Model.Alias
import Verif.Model.BSpline
import Verif.Model.Basic
import Verif.Model.Cli
import Verif.Model.CliWords
import Verif.Model.Cvm
import Verif.Model.DMorph
import Verif.Model.Delta
import Verif.Model.DeltaAnalyze
import Verif.Model.DeltaDriver
import Verif.Model.Dgsm
import Verif.Model.Directions
import Verif.Model.Discrepancy
import Verif.Model.EnhancedDriver
import Verif.Model.EnhancedFit
import Verif.Model.EnhancedHdmr
import Verif.Model.EnhancedOrth
import Verif.Model.Fast
import Verif.Model.Float
import Verif.Model.FloatCount
import Verif.Model.FloatDgsm
import Verif.Model.FloatDiscrepancy
import Verif.Model.FloatFast
import Verif.Model.FloatFracFact
import Verif.Model.FloatLatin
import Verif.Model.FloatLevels
import Verif.Model.FloatLog
import Verif.Model.FloatMorris
import Verif.Model.FloatMorrisStats
import Verif.Model.FloatSobol
import Verif.Model.FloatSum
import Verif.Model.FracFact
import Verif.Model.Groups
import Verif.Model.Hdmr
import Verif.Model.HdmrDriver
import Verif.Model.Latin
import Verif.Model.Morris
import Verif.Model.MorrisAnalyze
import Verif.Model.MorrisOpt
import Verif.Model.Oakley
import Verif.Model.Pawn
import Verif.Model.PlotHdmr
import Verif.Model.Plotting
import Verif.Model.PpfReal
import Verif.Model.ProblemSpec
import Verif.Model.RbdFast
import Verif.Model.Saltelli
import Verif.Model.SampleFile
import Verif.Model.Scale
import Verif.Model.Seed
import Verif.Model.SeedKinds
import Verif.Model.SobolAnalyze
import Verif.Model.SobolG
import Verif.Model.SobolSequence
import Verif.Model.SpecMethods
import Verif.Model.SpecTables
import Verif.Model.Stats
import Verif.Model.Tables
import Verif.Model.TestFunctions
import Verif.Props.Alias
import Verif.Props.BSpline
import Verif.Props.Backfit
import Verif.Props.BootstrapMean
import Verif.Props.Cli
import Verif.Props.CliWords
import Verif.Props.DMorph
import Verif.Props.DMorphBasis
import Verif.Props.DefaultResamples
import Verif.Props.DeltaAnalyze
import Verif.Props.DeltaBins
import Verif.Props.DeltaConf
import Verif.Props.DeltaDriver
import Verif.Props.DeltaFirst
import Verif.Props.DeltaLimit
import Verif.Props.DeltaResample
import Verif.Props.Dgsm
import Verif.Props.DgsmBound
import Verif.Props.DgsmCoverage
import Verif.Props.DgsmFixed
import Verif.Props.DgsmNet
import Verif.Props.Directions
import Verif.Props.DirectionsPrim
import Verif.Props.DiscMeaning
import Verif.Props.Discrepancy
import Verif.Props.Distributed
import Verif.Props.EnhancedBasis
import Verif.Props.EnhancedDriver
import Verif.Props.EnhancedFit
import Verif.Props.EnhancedGrid
import Verif.Props.EnhancedOrth
import Verif.Props.EnhancedOrthFit
import Verif.Props.EnhancedTerms
import Verif.Props.FastAnalyze
import Verif.Props.FastConf
import Verif.Props.FastMeaning
import Verif.Props.FastSample
import Verif.Props.FastSobol
import Verif.Props.FastVariance
import Verif.Props.FiniteDiff
import Verif.Props.FloatConf
import Verif.Props.FloatCount
import Verif.Props.FloatDgsm
import Verif.Props.FloatDgsmIndex
import Verif.Props.FloatDiscGroups
import Verif.Props.FloatDiscrepancy
import Verif.Props.FloatFast
import Verif.Props.FloatFracFact
import Verif.Props.FloatFracLinear
import Verif.Props.FloatLatin
import Verif.Props.FloatLevels
import Verif.Props.FloatLog
import Verif.Props.FloatMorris
import Verif.Props.FloatMorrisScaled
import Verif.Props.FloatMorrisStats
import Verif.Props.FloatSaltelli
import Verif.Props.FloatScale
import Verif.Props.FloatSobol
import Verif.Props.FloatSobolConf
import Verif.Props.FracFact
import Verif.Props.GivenData
import Verif.Props.Groups
import Verif.Props.HdmrDriver
import Verif.Props.HdmrEmulate
import Verif.Props.HdmrFit
import Verif.Props.HdmrPrint
import Verif.Props.HdmrRows
import Verif.Props.HdmrTerms
import Verif.Props.Ishigami
import Verif.Props.Lake
import Verif.Props.Latin
import Verif.Props.LatinMean
import Verif.Props.LinearModels
import Verif.Props.Morris
import Verif.Props.MorrisAccuracy
import Verif.Props.MorrisAnalyze
import Verif.Props.MorrisCoverage
import Verif.Props.MorrisEndToEnd
import Verif.Props.MorrisFixed
import Verif.Props.MorrisMean
import Verif.Props.MorrisOpt
import Verif.Props.MorrisScaled
import Verif.Props.NullIndex
import Verif.Props.Oakley
import Verif.Props.OrderMaps
import Verif.Props.ParallelParts
import Verif.Props.Pawn
import Verif.Props.PawnAnalyze
import Verif.Props.PawnGroups
import Verif.Props.PawnIndex
import Verif.Props.PawnLimit
import Verif.Props.PawnNull
import Verif.Props.PlotHdmr
import Verif.Props.Plotting
import Verif.Props.ProblemSpec
import Verif.Props.QuasiMean
import Verif.Props.RbdConf
import Verif.Props.RbdFast
import Verif.Props.RbdLatin
import Verif.Props.RbdLimit
import Verif.Props.Rsa
import Verif.Props.RsaLimit
import Verif.Props.RsaValue
import Verif.Props.Saltelli
import Verif.Props.SaltelliStrat
import Verif.Props.SampleFile
import Verif.Props.Scale
import Verif.Props.ScaleDists
import Verif.Props.ScaleNormal
import Verif.Props.ScaleQuantile
import Verif.Props.Seed
import Verif.Props.SeedKinds
import Verif.Props.SobolAccuracy
import Verif.Props.SobolCoverage
import Verif.Props.SobolFixed
import Verif.Props.SobolG
import Verif.Props.SobolGConv
import Verif.Props.SobolIndices
import Verif.Props.SobolInfluence
import Verif.Props.SobolKept
import Verif.Props.SobolMean
import Verif.Props.SobolNet
import Verif.Props.SobolParallel
import Verif.Props.SobolRead
import Verif.Props.SobolSeq
import Verif.Props.SobolTable
import Verif.Props.SpecMethods
import Verif.Props.Tables
import Verif.Spec.Cli
import Verif.Spec.CliWords
import Verif.Spec.Cross
import Verif.Spec.DMorph
import Verif.Spec.DeltaDriver
import Verif.Spec.DeltaLimit
import Verif.Spec.DerivMeasure
import Verif.Spec.DgsmNet
import Verif.Spec.DiscMeaning
import Verif.Spec.Discrepancy
import Verif.Spec.Dists
import Verif.Spec.EnhancedDriver
import Verif.Spec.Fast
import Verif.Spec.FastMeaning
import Verif.Spec.Float
import Verif.Spec.FloatDgsm
import Verif.Spec.FloatError
import Verif.Spec.FloatFast
import Verif.Spec.FloatLatin
import Verif.Spec.FloatMorris
import Verif.Spec.FloatMorrisScaled
import Verif.Spec.FloatMorrisStats
import Verif.Spec.FloatSobolConf
import Verif.Spec.FloatSum
import Verif.Spec.FracFact
import Verif.Spec.Groups
import Verif.Spec.HdmrDriver
import Verif.Spec.LatinMean
import Verif.Spec.Matrix
import Verif.Spec.Morris
import Verif.Spec.MorrisMean
import Verif.Spec.Oakley
import Verif.Spec.PawnLimit
import Verif.Spec.Plotting
import Verif.Spec.PrimPoly
import Verif.Spec.QuasiMean
import Verif.Spec.RbdLimit
import Verif.Spec.Ridge
import Verif.Spec.RsaValue
import Verif.Spec.SampleFile
import Verif.Spec.SeedKinds
import Verif.Spec.Sobol
import Verif.Spec.SobolMean
import Verif.Spec.SobolNet
import Verif.Spec.SpecMethods
import Verif.Spec.Tables
import Verif.Spec.TestFunctions

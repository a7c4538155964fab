import Verif.Model.DeltaPressure
import Verif.Props.Fourier
import Verif.Lemmas.FourierMask
import Verif.Lemmas.Fourier
import Verif.Props.DeltaPressure
import Verif.Lemmas.DeltaPressure2
import Verif.Lemmas.DeltaPressure
import Verif.Lemmas.PyList
import Verif.Spec.Layers
import Verif.Basic.Tensor
import Verif.Basic.XReal
import Verif.Model.Humidity
import Verif.Model.HeatIndex
import Verif.Model.Evap
import Verif.Lemmas.Dewtemp
import Verif.Lemmas.Relhum
import Verif.Lemmas.RelhumIce
import Verif.Props.Humidity
import Verif.Lemmas.HeatIndex
import Verif.Props.HeatIndex
import Verif.Lemmas.Evap
import Verif.Props.Evap
import Verif.Model.Lookup
import Verif.Model.Psi
import Verif.Lemmas.Psi
import Verif.Props.Psi
import Verif.Props.Lookup
import Verif.Model.Interp1d
import Verif.Spec.Interp
import Verif.Lemmas.Interp1d
import Verif.Basic.LArr
import Verif.Model.Hybrid
import Verif.Lemmas.Hybrid
import Verif.Props.Hybrid
import Verif.Model.Extrap
import Verif.Spec.HybridInterp
import Verif.Lemmas.HybridInterp
import Verif.Lemmas.Chunks
import Verif.Lemmas.HybridCall
import Verif.Props.HybridInterp
import Verif.Props.HybridInterp2
import Verif.Spec.Ecmwf
import Verif.Props.Extrap
import Verif.Model.Sigma
import Verif.Spec.Sigma
import Verif.Props.Sigma
import Verif.Model.Multidim
import Verif.Spec.Grid
import Verif.Lemmas.Multidim
import Verif.Props.Multidim
import Verif.Props.Multidim2
import Verif.Props.Exact
import Verif.Basic.Cal
import Verif.Basic.TimeSeries
import Verif.Model.Climatology
import Verif.Spec.Climate
import Verif.Lemmas.Climatology
import Verif.Lemmas.Climatology2
import Verif.Props.Climatology
import Verif.Props.Climatology2
import Verif.Props.Climatology3
import Verif.Lemmas.Climatology3
import Verif.Props.Climatology4
import Verif.Props.Climatology5
import Verif.Props.Climatology6
import Verif.Props.Climatology7
import Verif.Props.MonthToSeason
import Verif.Props.Climatology8
import Verif.Model.ClimAttrs
import Verif.Props.ClimAttrs
import Verif.Model.Nmse
import Verif.Spec.Stats
import Verif.Lemmas.Nmse
import Verif.Props.Nmse
import Verif.Model.Pearson
import Verif.Lemmas.Pearson
import Verif.Props.Pearson
import Verif.Model.Eof
import Verif.Props.Eof
import Verif.Model.Spherical
import Verif.Spec.Spherical
import Verif.Lemmas.Spherical
import Verif.Props.Spherical
import Verif.Model.Gradient
import Verif.Lemmas.Poly
import Verif.Lemmas.Wgs84
import Verif.Spec.Wgs84
import Verif.Props.Wgs84
import Verif.Spec.Gradient
import Verif.Lemmas.Gradient
import Verif.Props.Gradient
import Verif.Props.Gradient2
import Verif.Model.Deprecated
import Verif.Props.Deprecated
import Verif.Model.FourierNd
import Verif.Props.FourierNd
import Verif.Props.Psi2
import Verif.Model.MetLabels
import Verif.Props.MetLabels
import Verif.Model.HybridLabels
import Verif.Props.HybridLabels
import Verif.Props.MonthToSeason2
import Verif.Props.Nmse2
import Verif.Props.Hybrid2
import Verif.Props.HybridInterp3
import Verif.Props.Fourier2
import Verif.Props.Climatology9
import Verif.Spec.Points
import Verif.Lemmas.RelhumTable
import Verif.Props.PointApi
import Verif.Props.Eof2
import Verif.Props.Pearson2
import Verif.Props.RelhumTable
import Verif.Props.Gradient3
import Verif.Props.Psi3
import Verif.Model.PsiLabels
import Verif.Props.PsiLabels
import Verif.Spec.Seasons
import Verif.Props.Seasons
import Verif.Model.HybridCall
import Verif.Props.HybridCall
import Verif.Props.HybridInterp4
import Verif.Props.PsiNames
import Verif.Spec.Regular
import Verif.Props.Regular
import Verif.Props.Multidim3
import Verif.Model.SigmaInt
import Verif.Props.SigmaInt
import Verif.Model.MultidimMeta
import Verif.Props.MultidimMeta
import Verif.Props.ClimSelect
import Verif.Model.TimeKind
import Verif.Props.TimeKind
import Verif.Lemmas.Uniform
import Verif.Props.MetLabels2
import Verif.Props.PsiNames2
import Verif.Lemmas.Columns
import Verif.Props.VertLinear
import Verif.Props.HybridXr
import Verif.Props.Nmse3
import Verif.Props.Psi4
import Verif.Props.Shapes
import Verif.Basic.Rounding
import Verif.Basic.Formats
import Verif.Model.Floats
import Verif.Lemmas.FloatErr
import Verif.Lemmas.Floats
import Verif.Lemmas.FloatLine
import Verif.Lemmas.FloatSum
import Verif.Lemmas.FloatDelta
import Verif.Props.Floats
import Verif.Props.FloatDelta
import Verif.Props.Tight
import Verif.Props.Fourier3
import Verif.Props.ClimConvex
import Verif.Props.ClimUnits
import Verif.Props.VertUnits
import Verif.Props.VertMono
import Verif.Props.MultidimSeam
import Verif.Props.MultidimLinear
import Verif.Spec.Globe
import Verif.Props.FourierChain
import Verif.Props.GradientSym
import Verif.Props.HeatIndexMono
import Verif.Props.ClimSteps
import Verif.Props.ClimCycle
import Verif.Props.YearExact
import Verif.Props.SphericalSym
import Verif.Props.SeasonTwoWays
import Verif.Props.SeasonClimate
import Verif.Props.PsiLaws
import Verif.Props.DewPointSat
import Verif.Props.DaylightYear
import Verif.Spec.EofLib
import Verif.Lemmas.EofLib
import Verif.Props.EofModes
import Verif.Props.LayersPs
import Verif.Props.GradientMean
import Verif.Props.Requested
import Verif.Model.FloatsGrid
import Verif.Lemmas.FloatGrid
import Verif.Props.FloatGrid
import Verif.Check.UnitTests
import Verif.Props.EofCount
import Verif.Model.FloatsPsi
import Verif.Lemmas.FloatPsi
import Verif.Props.FloatPsi
import Verif.Model.FloatsNmse
import Verif.Props.FloatNmse
import Verif.Model.ClimArith
import Verif.Lemmas.ClimRel
import Verif.Props.FloatClim
import Verif.Lemmas.AnomRel
import Verif.Props.FloatAnom
import Verif.Model.FloatsGrad
import Verif.Lemmas.FloatGrad
import Verif.Lemmas.FloatGradient
import Verif.Props.FloatGrad
import Verif.Model.FloatsRelhum
import Verif.Lemmas.FloatRelhum
import Verif.Lemmas.FloatRelhumRh
import Verif.Props.FloatRelhum
import Verif.Spec.Norms
import Verif.Model.FloatsFourier
import Verif.Lemmas.FloatCast
import Verif.Lemmas.FourierNorm
import Verif.Props.FloatFourier
import Verif.Props.FloatSpacing
import Verif.Model.FloatsPearson
import Verif.Lemmas.FloatSqrt
import Verif.Lemmas.FloatPearson
import Verif.Props.FloatPearson
import Verif.Model.Memory
import Verif.Lemmas.Memory
import Verif.Props.Memory
import Verif.Model.WarnFilters
import Verif.Props.WarnFilters
import Verif.Props.ClimPieces
import Verif.Lemmas.FloatRel
import Verif.Model.FloatsDewtemp
import Verif.Lemmas.FloatDewtemp
import Verif.Props.FloatDewtemp
import Verif.Model.FloatsEvap
import Verif.Lemmas.FloatEvap
import Verif.Props.FloatEvap
import Verif.Model.MultidimInt
import Verif.Props.MultidimInt
import Verif.Model.FloatsRelhumIce
import Verif.Lemmas.FloatRelhumIce
import Verif.Props.FloatRelhumIce
import Verif.Model.FloatsDaylight
import Verif.Lemmas.FloatDaylight
import Verif.Props.FloatDaylight
import Verif.Lemmas.ClimShift
import Verif.Props.ClimShift
import Verif.Model.FloatsHeat
import Verif.Lemmas.FloatHeat
import Verif.Props.FloatHeat
import Verif.Model.FloatsExtrap
import Verif.Lemmas.FloatExtrap
import Verif.Lemmas.FloatExtrapZ
import Verif.Props.FloatExtrap
import Verif.Spec.Skill
import Verif.Props.Skill
import Verif.Lemmas.FloatCorr
import Verif.Lemmas.FloatCorrSum
import Verif.Lemmas.FloatCorrCall
import Verif.Props.FloatCorr
import Verif.Lemmas.FloatNmseErr
import Verif.Props.FloatNmseErr
import Verif.Spec.HybridAlign
import Verif.Model.HybridAlign
import Verif.Lemmas.HybridAlign
import Verif.Props.HybridAlign
import Verif.Props.SigmaAlign
import Verif.Spec.LabelAt
import Verif.Model.MetAlign
import Verif.Lemmas.LabelAt
import Verif.Props.MetAlign
import Verif.Model.NmseDims
import Verif.Lemmas.NmseDims
import Verif.Props.NmseDims
import Verif.Model.ExtrapAlign
import Verif.Spec.ExtrapAlign
import Verif.Lemmas.ExtrapAlign
import Verif.Props.ExtrapAlign
import Verif.Model.SphericalAlign
import Verif.Props.SphericalAlign
import Verif.Model.PearsonNd
import Verif.Lemmas.PearsonNd
import Verif.Props.PearsonNd
import Verif.Model.DeltaInt
import Verif.Props.DeltaInt
import Verif.Props.FloatSeam
import Verif.Props.HybridAlignExtrap
import Verif.Model.RecompAlign
import Verif.Props.RecompAlign
import Verif.Props.TwoStep
import Verif.Props.HumidityChain
import Verif.Props.Refine
import Verif.Props.MeanField
import Verif.Props.MeanLevels
import Verif.Props.MeanGradient
import Verif.Props.MeanPsi
import Verif.Props.TwoLayers
import Verif.Props.MeanHybrid
import Verif.Props.PsiUnits
import Verif.Props.FilterField
import Verif.Props.FilterGradient
import Verif.Props.HybridPs
import Verif.Props.FilterPsi
import Verif.Props.FilterAnomaly
import Verif.Props.FilterLevels
import Verif.Props.FilterSphere
import Verif.Props.SeasonAnomaly
import Verif.Props.MeanSphere
import Verif.Props.SvpMean
import Verif.Lemmas.EofUnique
import Verif.Props.EofUnits
import Verif.Props.EofOrder
import Verif.Props.NmseEnsemble
import Verif.Props.PearsonPairs
import Verif.Props.NmseOrder
import Verif.Props.PearsonThree
import Verif.Props.NmseLipschitz
import Verif.Props.PearsonLine
import Verif.Props.MeanError
import Verif.Props.VertError
import Verif.Props.MultidimError
import Verif.Props.DerivedError
import Verif.Props.FilterError
import Verif.Props.FilterPearson

import Verif.Np
import Verif.Model.Utilities
import Verif.Lemmas.Sorter
import Verif.Lemmas.Utilities
import Verif.Props.Utilities
import Verif.Model.Finders
import Verif.Lemmas.Besthist
import Verif.Props.Besthist
import Verif.Spec.Boxes
import Verif.Lemmas.Boxes
import Verif.Props.Boxes
import Verif.Model.Thetas
import Verif.Lemmas.Thetas
import Verif.Props.Thetas
import Verif.Props.ThetasSalinity
import Verif.Model.Stats
import Verif.Lemmas.Stats
import Verif.Props.Variance
import Verif.Props.Covar
import Verif.Props.Mapping
import Verif.Props.MappingMore
import Verif.Props.BreakFit
import Verif.Props.FitCond
import Verif.Props.FitExact
import Verif.Props.FitMore
import Verif.Props.FitArgs
import Verif.Props.FitChoice
import Verif.Props.FitDetermined
import Verif.Props.FitDof
import Verif.Props.FitOrder
import Verif.Props.FitExamples
import Verif.Props.FitLoops
import Verif.Props.Interp
import Verif.Props.Helper
import Verif.Props.Level
import Verif.Props.LevelMore
import Verif.Props.Topo
import Verif.Props.Region
import Verif.Props.RegionMore
import Verif.Props.Cache
import Verif.Props.RegionExamples
import Verif.Props.Update
import Verif.Props.Saf
import Verif.Props.SafExamples
import Verif.Model.Profile
import Verif.Spec.Profile
import Verif.Lemmas.Profile
import Verif.Props.Profile
import Verif.Props.ProfileMore
import Verif.Props.ProfileWorld
import Verif.Props.ProfileExamples
import Verif.Model.Calseries
import Verif.Spec.Calseries
import Verif.Lemmas.Calseries
import Verif.Props.Calseries
import Verif.Model.Analysis
import Verif.Spec.Analysis
import Verif.Props.Analysis
import Verif.Model.Piecewise
import Verif.Spec.Piecewise
import Verif.Lemmas.Piecewise
import Verif.Lemmas.FitStraight
import Verif.Props.Piecewise
import Verif.Props.PiecewiseMore
import Verif.Props.Drift
import Verif.Props.Bent
import Verif.Props.PiecewiseCoef
import Verif.Model.SalVar
import Verif.Spec.SalVar
import Verif.Lemmas.SalVar
import Verif.Props.SalVar
import Verif.Model.Plots
import Verif.Spec.Plots
import Verif.Lemmas.Plots
import Verif.Props.Plots
import Verif.Model.Workflow
import Verif.Spec.Workflow
import Verif.Lemmas.Workflow
import Verif.Props.Workflow
import Verif.Props.Crash
import Verif.Spec.FitErrors
import Verif.Spec.Repeat
import Verif.Lemmas.FitErrors
import Verif.Props.FitErrors
import Verif.Props.FitErrorsExamples
import Verif.Props.Repeat
import Verif.Props.Stations
import Verif.Spec.Depth
import Verif.Spec.Saved
import Verif.Lemmas.Depth
import Verif.Props.Depth
import Verif.Props.DepthOwn
import Verif.Props.DepthExamples
import Verif.Props.Saved
import Verif.Props.SavedExample
import Verif.Spec.Limits
import Verif.Lemmas.Limits
import Verif.Props.Limits
import Verif.Spec.ThetaLevels
import Verif.Props.ThetaLevels
import Verif.Model.Diagnostics
import Verif.Spec.Diagnostics
import Verif.Props.Diagnostics
import Verif.Props.Pyplot
import Verif.Props.Parallel
import Verif.Spec.PlotsAfter
import Verif.Props.PlotsAfter
import Verif.Spec.Blind
import Verif.Props.Blind
import Verif.Model.Shapes
import Verif.Spec.Shapes
import Verif.Props.Shapes
import Verif.Spec.Shift
import Verif.Lemmas.Shift
import Verif.Lemmas.ShiftRun
import Verif.Props.Shift
import Verif.Spec.Units
import Verif.Lemmas.Affine
import Verif.Lemmas.AffineRun
import Verif.Props.Units
import Verif.Spec.Rename
import Verif.Lemmas.Rename
import Verif.Props.Rename
import Verif.Spec.SavedFront
import Verif.Props.SavedFront
import Verif.Props.SavedFrontExample
import Verif.Spec.Reach
import Verif.Props.Reach
import Verif.Lemmas.Pairs
import Verif.Spec.Unseen
import Verif.Props.Unseen
import Verif.Spec.Order
import Verif.Props.Order
import Verif.Props.OrderRun
import Verif.Props.OrderExample
import Verif.Spec.Ends
import Verif.Props.Ends
import Verif.Props.EndsExample
import Verif.Spec.Clean
import Verif.Props.Clean
import Verif.Props.CleanExample
import Verif.Model.Settings
import Verif.Spec.Settings
import Verif.Props.Settings
import Verif.Props.SettingsExample
import Verif.Spec.Failure
import Verif.Props.Failure
import Verif.Props.FailureExample
import Verif.Spec.Alone
import Verif.Props.Alone
import Verif.Props.AloneExample
import Verif.Spec.Symmetry
import Verif.Props.Symmetry
import Verif.Spec.Exclude
import Verif.Props.Exclude
import Verif.Props.ExcludeExample
import Verif.Spec.NoEffect
import Verif.Props.NoEffect
import Verif.Props.NoEffectExample
import Verif.Props.PiecewiseErr
import Verif.Lemmas.Residual
import Verif.Props.ErrorBounds
import Verif.Props.ErrorBoundsExample
import Verif.Spec.SafIdle
import Verif.Props.SafIdle
import Verif.Props.SafIdleExample
import Verif.Props.EndsFront
import Verif.Props.EndsFrontExample
import Verif.Props.Delta
import Verif.Props.DeltaExample
import Verif.Props.Wider
import Verif.Props.WiderExample
import Verif.Props.WiderFront
import Verif.Props.WiderFrontExample
import Verif.Spec.Chance
import Verif.Props.Chance
import Verif.Props.ChanceExample
import Verif.Spec.Draws
import Verif.Props.Draws
import Verif.Props.Closest
import Verif.Spec.Larger
import Verif.Props.Larger
import Verif.Props.SixCasts
import Verif.Spec.Unconstrained
import Verif.Props.Unconstrained
import Verif.Props.SixCastsExample
import Verif.Props.SelectedRun
import Verif.Props.SelectedRunExample
import Verif.Props.SelectedReach

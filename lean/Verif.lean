import Verif.Props.Accuracy
import Verif.Props.Anomaly
import Verif.Props.ApparentTimes
import Verif.Props.Astrometry
import Verif.Props.Autocorr
import Verif.Props.AutocorrEstimator
import Verif.Props.Averages
import Verif.Props.Backprop
import Verif.Props.BackpropAstro
import Verif.Props.BackpropDelay
import Verif.Props.BackpropDist
import Verif.Props.BackpropDuration
import Verif.Props.BackpropExposure
import Verif.Props.BackpropFit
import Verif.Props.BackpropGrid
import Verif.Props.BackpropInterp
import Verif.Props.BackpropKepler
import Verif.Props.BackpropLaw
import Verif.Props.BackpropMotion
import Verif.Props.BackpropRv
import Verif.Props.BackpropSecondary
import Verif.Props.BackpropStar
import Verif.Props.BackpropTtv
import Verif.Props.Bls
import Verif.Props.Citations
import Verif.Props.Compat
import Verif.Props.Conjunction
import Verif.Props.Constants
import Verif.Props.Continuity
import Verif.Props.Conventions
import Verif.Props.DelayContinuity
import Verif.Props.Depth
import Verif.Props.DepthBounds
import Verif.Props.DistributionShapes
import Verif.Props.DistributionShapes2
import Verif.Props.Distributions
import Verif.Props.DurToEcc
import Verif.Props.DurToEccMarginal
import Verif.Props.Duration
import Verif.Props.Eccentricity
import Verif.Props.EccentricityVector
import Verif.Props.Emission
import Verif.Props.EstimatorUnits
import Verif.Props.FitSymmetry
import Verif.Props.Geometry
import Verif.Props.Gradients
import Verif.Props.Hyperpriors
import Verif.Props.Impossible
import Verif.Props.InTransit
import Verif.Props.InTransit2
import Verif.Props.Independence
import Verif.Props.Inputs
import Verif.Props.Interp
import Verif.Props.Interpolated
import Verif.Props.Kinematics
import Verif.Props.LightCurve
import Verif.Props.LightCurve2
import Verif.Props.LightDelay
import Verif.Props.LimbDark
import Verif.Props.LombScargle
import Verif.Props.MassRecovery
import Verif.Props.MidTransit
import Verif.Props.MinimumMass
import Verif.Props.MissingArgs
import Verif.Props.Names
import Verif.Props.Parameters
import Verif.Props.PeakUnits
import Verif.Props.Peaks
import Verif.Props.Physical
import Verif.Props.Priors
import Verif.Props.Rates
import Verif.Props.RoundedAcceleration
import Verif.Props.RoundedAngles
import Verif.Props.RoundedAttributes
import Verif.Props.RoundedInclination
import Verif.Props.RoundedRv
import Verif.Props.RoundedSimple
import Verif.Props.RoundedVelocity
import Verif.Props.Rounding
import Verif.Props.RoundingEcc
import Verif.Props.Scaling
import Verif.Props.Secondary
import Verif.Props.SemiAmplitude
import Verif.Props.SeveralBodies
import Verif.Props.Simple
import Verif.Props.SimpleImpossible
import Verif.Props.SimpleKepler
import Verif.Props.Slopes
import Verif.Props.StateVector
import Verif.Props.Stencil
import Verif.Props.Symmetry
import Verif.Props.System
import Verif.Props.SystemInterpolated
import Verif.Props.SystemLightCurve
import Verif.Props.SystemSecondary
import Verif.Props.SystemSimple
import Verif.Props.TransitFit
import Verif.Props.Translate
import Verif.Props.Ttv
import Verif.Props.TtvInTransit
import Verif.Props.TtvLists
import Verif.Props.TtvRelabel
import Verif.Props.TtvSystem
import Verif.Props.Tutorials
import Verif.Props.UnitsHeap
import Verif.Props.VelocityFit
import Verif.Props.Warnings
import Verif.Audit

import Verif.Py
import Verif.Model.Bicycle
import Verif.Spec.RigidBody
import Verif.Lemmas.Canonical
import Verif.Props.Bicycle
import Verif.Props.Sorting
import Verif.Props.Canonical
import Verif.Model.Geometry
import Verif.Spec.Plane
import Verif.Props.Geometry
import Verif.Model.Inertia
import Verif.Props.Inertia
import Verif.Spec.Product
import Verif.Props.Com
import Verif.Props.Conversions
import Verif.Model.IO
import Verif.Lemmas.Text
import Verif.Props.IO
import Verif.Props.Names
import Verif.Model.Period
import Verif.Props.Period
import Verif.Model.Main
import Verif.Props.Bike
import Verif.Props.Steer
import Verif.Spec.NewtonEuler
import Verif.Props.NewtonEuler
import Verif.Props.Measured
import Verif.Props.Pipeline
import Verif.Model.Tables
import Verif.Props.Tables
import Verif.Props.RstTable
import Verif.Model.ParameterSets
import Verif.Props.ParameterSets
import Verif.Props.SetGeometry
import Verif.Model.Models
import Verif.Spec.Overrides
import Verif.Lemmas.Models
import Verif.Props.Models
import Verif.Props.Feedback
import Verif.Props.RiderLean
import Verif.Model.ModelMethods
import Verif.Props.Eigen
import Verif.Props.EigenPlots
import Verif.Props.Simulate
import Verif.Model.Rider
import Verif.Model.App
import Verif.Spec.Rider
import Verif.Props.Rider
import Verif.Props.App
import Verif.Gen.EvalLinear
import Verif.Lemmas.EvalLinear
import Verif.Lemmas.EvalLinearChecks
import Verif.Model.EvalLinear
import Verif.Props.EvalLinear
import Verif.Spec.EvalLinear
import Verif.Lemmas.Laurent
import Verif.Gen.UprightPoly1
import Verif.Gen.UprightPoly2
import Verif.Gen.UprightPoly3
import Verif.Gen.UprightPoly4
import Verif.Gen.UprightPoly5
import Verif.Gen.UprightPoly
import Verif.Lemmas.LeanFormulas
import Verif.Lemmas.UprightChecks
import Verif.Lemmas.Upright
import Verif.Spec.RiderLean
import Verif.Props.LeanNewtonEuler
import Verif.Props.LeanMotion
import Verif.Props.LeanEnergy
import Verif.Model.MainPlots
import Verif.Lemmas.RouthHurwitz
import Verif.Props.SpeedPlots
import Verif.Props.SimulationPlots
import Verif.Model.Save
import Verif.Props.Save
import Verif.Model.PeriodFit
import Verif.Props.PeriodFit
import Verif.Props.RectifiedSections
import Verif.Model.SetPlots
import Verif.Props.SetPlots
import Verif.Model.GeometryPlot
import Verif.Props.GeometryPlot
import Verif.Props.GeometryEllipse
import Verif.Props.GeometryPlotly
import Verif.Props.ComparePlots
import Verif.Props.Uncertain
import Verif.Props.UncertainTilt
import Verif.Props.UncertainGeometry
import Verif.Model.UncertainMeasured
import Verif.Props.UncertainMeasured
import Verif.Props.UncertainMeasuredTracks
import Verif.Props.UncertainMeasuredLines
import Verif.Props.UncertainMeasuredPlane
import Verif.Props.UncertainMeasuredMain
import Verif.Props.UncertainMeasuredExample
import Verif.Props.Jacobian
import Verif.Props.SteadyRiding
import Verif.Props.Invariance
import Verif.Props.Rolling
import Verif.Props.RideSymmetry
import Verif.Props.Determined
import Verif.Lemmas.DynamicsInertia
import Verif.Props.Dynamics
import Verif.Lemmas.DynamicsFree
import Verif.Props.Mechanics
import Verif.Model.Session
import Verif.Lemmas.Session
import Verif.Props.Session
import Verif.Props.Cut
import Verif.Model.PeriodPlot
import Verif.Props.PeriodPlot
import Verif.Model.Browse
import Verif.Props.Browse
import Verif.Model.Together
import Verif.Props.Together
import Verif.Model.Objects
import Verif.Props.Objects
import Verif.Lemmas.Hurwitz
import Verif.Props.Stability
import Verif.Props.Units
import Verif.Props.Gains
import Verif.Props.SteadyTurn
import Verif.Props.Riders
import Verif.Lemmas.Decay
import Verif.Props.Decay
import Verif.Props.BodeMotion
import Verif.Props.Standing
import Verif.Model.Shipped
import Verif.Props.Shipped
import Verif.Props.SimulateDecay
import Verif.Props.ShippedConverted
import Verif.Model.Rounding
import Verif.Lemmas.Rounding
import Verif.Gen.RoundingCert
import Verif.Props.Rounding
import Verif.Lemmas.RoundingRel
import Verif.Props.RoundingRel
import Verif.Lemmas.StateRounding
import Verif.Props.StateRounding
import Verif.Lemmas.EigRounding
import Verif.Props.EigRounding
import Verif.Model.MixedInertia
import Verif.Props.MixedInertia
import Verif.Model.Cartesian
import Verif.Props.Cartesian
import Verif.Props.Branches
import Verif.Props.SortState
import Verif.Lemmas.Distinct
import Verif.Props.ShippedModes
import Verif.Props.PendulumFiles
import Verif.Props.ListingOrder

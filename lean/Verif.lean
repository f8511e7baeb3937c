import Verif.Outcome
import Verif.Utility.Model
import Verif.Utility.Lemmas
import Verif.Utility.Props
import Verif.Parser.Props
import Verif.Models.Props
import Verif.Minimizer.ThreadsProps
import Verif.Minimizer.Props
import Verif.Tracer.ReduceProps
import Verif.Tracer.GeometryProps
import Verif.Tracer.CoexProps
import Verif.Tracer.CritProps
import Verif.Tracer.TrackEnd
import Verif.Tracer.ModesProps
import Verif.Transition.TableProps
import Verif.Programs.OptionsProps
import Verif.Bounce.ScanProps
import Verif.Bounce.TempsProps
import Verif.Bounce.RatesProps
import Verif.Bounce.Report
import Verif.GW.Props
import Verif.GW.Literature
import Verif.Potential.TreeProps
import Verif.Potential.SymProps
import Verif.Potential.VeffProps
import Verif.Potential.LoopProps
import Verif.Potential.LoopFunProps
import Verif.Potential.SignProps
import Verif.Potential.InitProps
import Verif.Minimizer.PlaneProps
import Verif.Utility.NumDerivProps
import Verif.Thermal.InterpProps
import Verif.Spline.MonotoneProps
import Verif.Spline.PathProps
import Verif.Action.BernsteinProps
import Verif.Action.RKProps
import Verif.Action.BesselProps
import Verif.Action.ShootProps
import Verif.Action.CalcProps
import Verif.Action.DeformProps
import Verif.Action.QuadProps
import Verif.Bounce.ScanRules
import Verif.Lagrangian.Tensor
import Verif.Lagrangian.Eval
import Verif.Lagrangian.Spec
import Verif.Lagrangian.Invariance
import Verif.Lagrangian.SM.Model
import Verif.Lagrangian.SM.Props
import Verif.Lagrangian.Loop
import Verif.Lagrangian.TwoDoublets
import Verif.Lagrangian.R2HDM.Model
import Verif.Lagrangian.R2HDM.Tables
import Verif.Lagrangian.R2HDM.Props
import Verif.Lagrangian.R2HDM.Counter
import Verif.Lagrangian.C2HDM.Counter
import Verif.Lagrangian.Drops
import Verif.Lagrangian.Singlet
import Verif.Lagrangian.N2HDM.Model
import Verif.Lagrangian.N2HDM.Tables
import Verif.Lagrangian.N2HDM.Props
import Verif.Lagrangian.N2HDM.Counter
import Verif.Lagrangian.Expansions
import Verif.Lagrangian.CxSM.Counter
import Verif.Lagrangian.CPintheDark.Counter
import Verif.Lagrangian.Template.Props
import Verif.Yukawa.Spec
import Verif.Yukawa.Form
import Verif.Yukawa.Constants
import Verif.Yukawa.SM
import Verif.Yukawa.CxSM
import Verif.Yukawa.CPintheDark
import Verif.Yukawa.TwoHDM
import Verif.Yukawa.TwoHDMProps
import Verif.Yukawa.Block
import Verif.Yukawa.Masses
import Verif.Spectrum.Gauge
import Verif.Spectrum.Vacuum
import Verif.Lagrangian.Coded
import Verif.Lagrangian.Derivatives
import Verif.Lagrangian.SM.Symmetry
import Verif.Lagrangian.CxSM.Symmetry
import Verif.Lagrangian.R2HDM.Symmetry
import Verif.Lagrangian.C2HDM.Symmetry
import Verif.Lagrangian.N2HDM.Symmetry
import Verif.Lagrangian.CPintheDark.Symmetry
import Verif.Lagrangian.DerivativeProps
import Verif.Debye.Model
import Verif.Debye.Lemmas
import Verif.Debye.Pieces
import Verif.Debye.Spec
import Verif.Debye.Assemble
import Verif.Debye.HighT
import Verif.Debye.OneDoublet
import Verif.Debye.TwoDoublets
import Verif.Debye.Singlets
import Verif.Debye.GaugeValues
import Verif.Debye.Compare
import Verif.Debye.Props
import Verif.Lagrangian.Restrict
import Verif.Invariance.Scalar
import Verif.Invariance.Fermion
import Verif.Invariance.Rotation
import Verif.Invariance.Gauge
import Verif.Invariance.Model
import Verif.Invariance.Spec
import Verif.Invariance.Assemble
import Verif.Invariance.OneDoublet
import Verif.Invariance.TwoDoublets
import Verif.Invariance.Nine
import Verif.Invariance.Parity
import Verif.Invariance.Conjugation
import Verif.Invariance.Props
import Verif.Weinberg.Trace
import Verif.Weinberg.Estimate
import Verif.Weinberg.Deriv
import Verif.Weinberg.Model
import Verif.Weinberg.Spec
import Verif.Weinberg.Function
import Verif.Weinberg.Species
import Verif.Weinberg.Vectors
import Verif.Weinberg.Smooth
import Verif.Weinberg.Photon
import Verif.Weinberg.Assemble
import Verif.Weinberg.Loop
import Verif.Weinberg.Props
import Verif.Weinberg.Tree
import Verif.Weinberg.Models
import Verif.Weinberg.Renormalised
import Verif.Weinberg.StandardModel
import Verif.Weinberg.Example
import Verif.Invariance.Orbit
import Verif.Invariance.Minimum
import Verif.Baryo.Config
import Verif.Baryo.ConfigSpec
import Verif.Baryo.ConfigLemmas
import Verif.Baryo.ConfigProps
import Verif.Wall.Model
import Verif.Wall.Props
import Verif.Wall.Thickness
import Verif.Via.Model
import Verif.Via.Spec
import Verif.Via.Ode
import Verif.Via.Linear
import Verif.Via.Source
import Verif.Via.Solutions
import Verif.Via.Reactions
import Verif.Via.Props
import Verif.Via.Asymmetry
import Verif.Via.AsymmetrySpec
import Verif.Via.AsymmetryProps
import Verif.Via.AsymmetryExample
import Verif.Fh.Model
import Verif.Fh.Spec
import Verif.Fh.Short
import Verif.Fh.Props
import Verif.Fh.Solve
import Verif.Fh.Solutions
import Verif.Fh.Profile
import Verif.Fh.ProfileProps
import Verif.Eigen.Model
import Verif.Eigen.Spec
import Verif.Eigen.Perturb
import Verif.Eigen.Lemmas
import Verif.Eigen.Example
import Verif.Eigen.Props
import Verif.Eigen.Fails
import Verif.Eigen.Masses
import Verif.Eigen.MassesExample
import Verif.Via.Rates
import Verif.Via.RatesSpec
import Verif.Via.RatesLemmas
import Verif.Via.RatesExpand
import Verif.Via.RatesProps
import Verif.Via.SourceProps
import Verif.Via.ThermalProps
import Verif.Batch.Model
import Verif.Batch.Spec
import Verif.Batch.Lines
import Verif.Batch.Read
import Verif.Batch.ReadSpec
import Verif.Batch.ReadProps
import Verif.Batch.Legend
import Verif.Batch.LegendSpec
import Verif.Batch.LegendProps
import Verif.Triple.Model
import Verif.Triple.Spec
import Verif.Triple.Lemmas
import Verif.Triple.Props
import Verif.Third.Divided
import Verif.Third.Interpolate
import Verif.Third.Estimate
import Verif.Third.Deriv
import Verif.Third.Trace
import Verif.Third.Model
import Verif.Third.Function
import Verif.Third.Species
import Verif.Third.Assemble
import Verif.Third.Props
import Verif.Third.Physical
import Verif.Third.Coordinates
import Verif.Third.PhysicalProps
import Verif.Check.Model
import Verif.Check.Spec
import Verif.Check.Lemmas
import Verif.Check.Props
import Verif.Check.Models
import Verif.Check.Numeric
import Verif.Check.NumericProps
import Verif.Check.NumericModels
import Verif.Check.Implementation
import Verif.Check.ImplementationProps
import Verif.Kfactors.Model
import Verif.Kfactors.Spec
import Verif.Kfactors.Integrand
import Verif.Kfactors.Radial
import Verif.Kfactors.Series
import Verif.Kfactors.Norms
import Verif.Kfactors.Props
import Verif.Plotter.Model
import Verif.Plotter.Spec
import Verif.Plotter.Props
import Verif.Perc.Model
import Verif.Perc.Spec
import Verif.Perc.FractionProps
import Verif.Perc.OrderProps
import Verif.Perc.StrengthProps
import Verif.Perc.Request
import Verif.Perc.RequestProps
import Verif.Ascii.Model
import Verif.Ascii.Spec
import Verif.Ascii.Lemmas
import Verif.Ascii.Draw
import Verif.Ascii.Props
import Verif.Thermal.ValueProps
import Verif.Spline.SlopeProps
import Verif.Action.DetailProps
import Verif.Batch.DetailProps
import Verif.Baryo.DetailProps
import Verif.Wall.DetailProps
import Verif.GW.DetailProps
import Verif.Fh.RateProps
import Verif.Bounce.RefineProps
import Verif.Tracer.Restoration
import Verif.Tracer.RestorationSpec
import Verif.Tracer.RestorationProps
import Verif.Tracer.GlobMin
import Verif.Tracer.GlobMinProps
import Verif.Thermal.Table
import Verif.Thermal.Negative
import Verif.Thermal.NegativeProps
import Verif.Batch.Minima
import Verif.Batch.MinimaProps
import Verif.Minimizer.Runs
import Verif.Minimizer.RunsProps
import Verif.Programs.Positional
import Verif.Programs.PositionalProps
import Verif.Programs.Scan
import Verif.Programs.ScanProps
import Verif.Batch.Ewbg
import Verif.Batch.EwbgProps
import Verif.Programs.MuGrid
import Verif.Programs.MuGridProps
import Verif.Tracer.Flat
import Verif.Tracer.FlatProps
import Verif.Tracer.Begin
import Verif.Tracer.BeginProps
import Verif.Tracer.Smallest
import Verif.Tracer.SmallestProps
import Verif.Eigen.Second
import Verif.Eigen.SecondProps
import Verif.Kfactors.Grid
import Verif.Kfactors.GridProps
import Verif.Fh.Masses
import Verif.Fh.MassesProps
import Verif.Wall.Search
import Verif.Wall.SearchProps
import Verif.Via.Kappa
import Verif.Via.KappaProps
import Verif.Thermal.Numeric
import Verif.Thermal.NumericProps
import Verif.Minimizer.PlaneRuns
import Verif.Minimizer.PlaneRunsProps
import Verif.Tracer.Diagram
import Verif.Tracer.DiagramProps
import Verif.Models.Report
import Verif.Models.ReportProps
import Verif.Spline.Roots
import Verif.Spline.RootsProps
import Verif.Baryo.Align
import Verif.Baryo.AlignProps
import Verif.Baryo.Phases
import Verif.Baryo.PhasesProps
import Verif.Shapes.Model
import Verif.Shapes.Props
import Verif.Tracer.RegionEnds
import Verif.Minimizer.Whole
import Verif.Minimizer.WholeProps
import Verif.Tracer.GlobMinFlat
import Verif.Batch.RejectProps
import Verif.Bounce.TimeScale
import Verif.Bounce.TimeScaleProps
import Verif.Spline.RootsSepProps
import Verif.GW.Snr
import Verif.GW.SnrProps
import Verif.Fh.Direct
import Verif.Fh.DirectProps
import Verif.Potential.LoopDetail

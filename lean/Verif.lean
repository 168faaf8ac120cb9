import Verif.Examples
import Verif.Props.Trig
import Verif.Props.Modes
import Verif.Props.Run
import Verif.Props.Surfaces
import Verif.Props.Quadrature
import Verif.Props.Theory
import Verif.Props.Covariance
import Verif.Props.Symmetry
import Verif.Props.Report
import Verif.Props.Load
import Verif.Props.LoadReal
import Verif.Props.Wout
import Verif.Props.Boozmn
import Verif.Props.Exact
import Verif.Props.Negative
import Verif.Props.Console
import Verif.Props.Driver
import Verif.Props.Parallel
import Verif.Props.Session
import Verif.Props.AlreadyBoozer
import Verif.Props.Rounding
import Verif.Props.Plots
import Verif.Props.Wires
import Verif.Props.PlotsFile
import Verif.Props.PlotAxis
import Verif.Props.Sizes
import Verif.Props.Convergence
import Verif.Props.BoozerAngles
import Verif.Props.TheoryText
import Verif.Props.RunRounding
import Verif.Props.LoadRounding
import Verif.Props.DebugRounding
import Verif.Props.EndToEnd
import Verif.Props.Uniform
import Verif.Props.ReportBlind
import Verif.Props.Axisymmetric
import Verif.Props.Quasisymmetry
import Verif.Props.Translation
import Verif.Props.HalfTurn
import Verif.Props.Reparam
import Verif.Props.Mirror
import Verif.Props.Views
import Verif.Props.Exponential
import Verif.Props.Functions
import Verif.Props.Attributes
import Verif.Props.Profiles
import Verif.Spec.ProfilesAssigned
import Verif.Props.ProfilesAssigned
import Verif.Props.Shown
import Verif.Props.Periods
import Verif.Props.Handles
import Verif.Props.ReportRounding
import Verif.Props.FileSpectrum
import Verif.Props.Stdout
import Verif.Props.Keywords
import Verif.Props.Malformed
import Verif.Props.MalformedBoozmn
import Verif.Props.DriverExact
import Verif.Props.ExactWout
import Verif.Props.Field
import Verif.Props.Stale
import Verif.Props.Levels
import Verif.Props.OneFile
import Verif.Props.AfterRead
import Verif.Props.MeanSquare
import Verif.Props.MeanSquareAll
import Verif.Props.Broken
import Verif.Props.Volume
import Verif.Props.FieldLine
import Verif.Props.Positions
import Verif.Spec.FileSeries
import Verif.Props.FileSeries
import Verif.Spec.Figures
import Verif.Props.Figures
import Verif.Spec.Interp
import Verif.Spec.InterpFile
import Verif.Lemmas.Bends
import Verif.Props.Interp
import Verif.Props.InterpFile
import Verif.Spec.Gauge
import Verif.Props.Gauge
import Verif.Spec.LineRounding
import Verif.Props.LineRounding
import Verif.Props.LineFile
import Verif.Props.CurrentFile
import Verif.Props.VolumeFile
import Verif.Props.FigureRounding
import Verif.Props.WireRounding
import Verif.Props.RadialPlots
import Verif.Spec.LargestModes
import Verif.Props.LargestModes
import Verif.Props.LargestExact
import Verif.Props.VolumeRounding
import Verif.Spec.Derivatives
import Verif.Lemmas.Landau
import Verif.Props.Derivatives
import Verif.Props.DerivFile
import Verif.Spec.Trapped
import Verif.Lemmas.Trapped
import Verif.Props.Trapped

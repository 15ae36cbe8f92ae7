import Verif.Float.Is
import Verif.Float.Nearest
import Verif.Model.Calendar
import Verif.Model.DeltaAt
import Verif.Model.Time
import Verif.Model.Common
import Verif.Lemmas.Calendar
import Verif.Lemmas.ToJulian
import Verif.Lemmas.OfDay
import Verif.Lemmas.SplitF64
import Verif.Lemmas.SplitReal
import Verif.Lemmas.FinF64
import Verif.Props.Calendar
import Verif.Lemmas.FromJulian
import Verif.Props.FromJulian
import Verif.Lemmas.HMS
import Verif.Props.HMS
import Verif.Lemmas.Display
import Verif.Props.Display
import Verif.Float.Near
import Verif.Spec.DeltaAt
import Verif.Lemmas.DeltaAt
import Verif.Props.DeltaAt
import Verif.Props.Time
import Verif.Lemmas.Mat3
import Verif.Props.Common
import Verif.Float.Mag
import Verif.Model.Fundargs
import Verif.Model.Earth
import Verif.Model.Locator
import Verif.Model.Frames
import Verif.Props.Fundargs
import Verif.Props.EarthAngle
import Verif.Props.EarthMotion
import Verif.Spec.EpvRef
import Verif.Lemmas.Epv
import Verif.Lemmas.EpvReal
import Verif.Props.Earth
import Verif.Props.Frames
import Verif.Model.Ellipsoid
import Verif.Props.Ellipsoid
import Verif.Props.Geodetic360
import Verif.Props.EllipsoidAccuracy
import Verif.Model.SunAngle
import Verif.Props.SunAngle
import Verif.Props.SunAngleTool
import Verif.Props.SunAngleTime
import Verif.Props.Constants
import Verif.Spec.Rotation
import Verif.Props.FramesSpec
import Verif.Spec.Nut00b
import Verif.Spec.S00
import Verif.Props.Series
import Verif.Float.Sqrt
import Verif.Float.NB
import Verif.Lemmas.LibmAcc
import Verif.Lemmas.NutAcc
import Verif.Lemmas.MatNorm
import Verif.Lemmas.MatAcc
import Verif.Lemmas.FrameAcc
import Verif.Lemmas.CioAcc
import Verif.Lemmas.C2iAcc
import Verif.Lemmas.TerAcc
import Verif.Props.FramesAccuracy
import Verif.Lemmas.EpvAcc
import Verif.Lemmas.EpvSeries
import Verif.Lemmas.EpvFrom
import Verif.Props.EarthAccuracy
import Verif.Lemmas.AngleAcc
import Verif.Lemmas.SunAcc
import Verif.Props.VectorAccuracy
import Verif.Props.Totals
import Verif.Props.GeodeticAccuracy
import Verif.Lemmas.SunNew
import Verif.Props.SunAccuracy
import Verif.Model.Format
import Verif.Spec.Numeral
import Verif.Lemmas.Numeral
import Verif.Props.Text
import Verif.Props.SunText
import Verif.Props.ToolText
import Verif.Float.SB
import Verif.Props.GeocentricAccuracy
import Verif.Props.GeocentricRoundTrip
import Verif.Lemmas.GeodeticInverse
import Verif.Props.GeodeticRoundTrip
import Verif.Float.Floor
import Verif.Model.Tests
import Verif.Props.Tests
import Verif.Spec.MeanSun
import Verif.Lemmas.MeanSun
import Verif.Lemmas.MeanSunVec
import Verif.Lemmas.MeanSunSky
import Verif.Lemmas.MeanSunDates
import Verif.Props.MeanSun
import Verif.Model.Parse
import Verif.Model.Args
import Verif.Spec.FloatText
import Verif.Spec.CommandLine
import Verif.Lemmas.Parse
import Verif.Lemmas.Shortest
import Verif.Lemmas.FloatText
import Verif.Lemmas.Args
import Verif.Props.Parse
import Verif.Props.CommandLine
import Verif.Props.ToolRuns
import Verif.Props.Defaults
import Verif.Props.Scan
import Verif.Float.NearOps
import Verif.Lemmas.HeightAcc
import Verif.Lemmas.HeightDir
import Verif.Lemmas.HeightCore
import Verif.Lemmas.HeightForward
import Verif.Props.HeightAccuracy
import Verif.Props.TestEllipsoid
import Verif.Lemmas.Angle3
import Verif.Lemmas.SeriesLip
import Verif.Lemmas.SunRate
import Verif.Props.SunRate
import Verif.Lemmas.SunClimb
import Verif.Props.SunDay
import Verif.Props.Tropics
import Verif.Model.Dump
import Verif.Spec.RustConst
import Verif.Lemmas.Dump
import Verif.Props.Dump
import Verif.Float.Fast
import Verif.Model.TestsWhole
import Verif.Model.TestData.Era
import Verif.Model.TestData.Pr
import Verif.Model.TestData.C2t
import Verif.Lemmas.TestData
import Verif.Props.TestsWhole
import Verif.Spec.RustData
import Verif.Model.TestSofa
import Verif.Lemmas.TestSofa
import Verif.Props.TestSofa
import Verif.Props.Culmination
import Verif.Props.Limits
import Verif.Props.DumpText
import Verif.Props.LongDays
import Verif.Props.Loops
import Verif.Props.IcrfAxes
import Verif.Props.NoonAltitude
import Verif.Props.TestSun
import Verif.Props.Draws
import Verif.Props.Distance
import Verif.Props.Process
import Verif.Model.Process
import Verif.Lemmas.Declination
import Verif.Lemmas.DeclMotion
import Verif.Props.Solstice
import Verif.Props.TimeF64
import Verif.Props.FieldWidth
import Verif.Props.FirstMonth
import Verif.Spec.EquationOfTime
import Verif.Lemmas.EquationOfTime
import Verif.Lemmas.EquationOfTimeSign
import Verif.Lemmas.EquationOfTimeDates
import Verif.Props.EquationOfTime
import Verif.Props.Places
import Verif.Props.Moment
import Verif.Spec.Ellipsoid
import Verif.Props.HeightDistance
import Verif.Props.TaiOrder
import Verif.Props.Degrees
import Verif.Lemmas.MeanPole
import Verif.Props.PoleMotion
import Verif.Props.NonFinite
import Verif.Props.FrameRate
import Verif.Props.NearRotation
import Verif.Props.TurnVectors
import Verif.Props.Newton
import Verif.Props.Year
import Verif.Props.Ellipse
import Verif.Props.SunMotion
import Verif.Props.Energy
import Verif.Props.Messages
import Verif.Props.Obliquity
import Verif.Props.TestSunLabels
import Verif.Props.UnitOfLength
import Verif.Props.Equinox
import Verif.Props.MeanObliquity
import Verif.Props.EllipsoidAccess
import Verif.Props.Deflection
import Verif.Props.GeodeticSymmetry
import Verif.Props.BitSymmetry
import Verif.Props.Months
import Verif.Props.NewMoons
import Verif.Props.Longitudes
import Verif.Props.MeanTime
import Verif.Props.ShortNutation

import Verif.Model.Dynamic
import Verif.Props.Geometry
import Verif.Props.Materials
import Verif.Props.Loads
import Verif.Props.Options
import Verif.Props.Results
import Verif.Props.Search
import Verif.Props.Slices
import Verif.Props.Fos
import Verif.Props.FosLaws
import Verif.Lemmas.Own
import Verif.Props.Critical
import Verif.Props.Dynamic
import Verif.Props.Limits
import Verif.Props.Ieee
import Verif.Props.PlotCircle
import Verif.Props.PlotBoundary
import Verif.Props.Heap
import Verif.Props.Total
import Verif.Props.Web
import Verif.Props.WebTotal
import Verif.Props.Radii
import Verif.Props.Assessed
import Verif.Props.Pairs
import Verif.Props.Closer
import Verif.Spec.Session
import Verif.Props.Session
import Verif.Props.PlotAll
import Verif.Props.CrestFace
import Verif.Props.Steep
import Verif.Props.PlotFlat
import Verif.Props.Accepted
import Verif.Spec.Scale
import Verif.Lemmas.ScaleCalls
import Verif.Props.ScaleHistory
import Verif.Spec.Alike
import Verif.Props.Alike
import Verif.Model.Draw
import Verif.Lemmas.UdlMax
import Verif.Spec.Draw
import Verif.Props.Draw
import Verif.Spec.AnyArith
import Verif.Props.AnyArith
import Verif.Props.PageLines
import Verif.Spec.IeeeForm
import Verif.Lemmas.IeeeForm
import Verif.Props.IeeeForm
import Verif.Props.NotANumberOrder
import Verif.Spec.Size
import Verif.Lemmas.Size
import Verif.Props.Size
import Verif.Spec.Ieee754
import Verif.Lemmas.Ieee754
import Verif.Lemmas.Interval
import Verif.Props.NotNumbers
import Verif.Props.NotNumbersRun
import Verif.Props.IeeeResults
import Verif.Props.Friction
import Verif.Props.Clay
import Verif.Props.Surcharge
import Verif.Spec.Local
import Verif.Props.Local
import Verif.Spec.Circles
import Verif.Props.Circles
import Verif.Spec.Rising
import Verif.Props.Rising
import Verif.Props.RisingWitness
import Verif.Spec.Similar
import Verif.Props.Similar
import Verif.Spec.Reduced
import Verif.Props.Reduced
import Verif.Spec.Sand
import Verif.Props.Sand
import Verif.Spec.Accuracy
import Verif.Props.Accuracy
import Verif.Props.Farther
import Verif.Props.Sensitivity
import Verif.Props.Legend
import Verif.Props.DynPrint
import Verif.Props.Heavier
import Verif.Props.Rounding
import Verif.Props.RoundingCalls
import Verif.Props.RoundingSearch
import Verif.Props.RoundingSearchCase
import Verif.Props.NeverFound
import Verif.Props.DoublesLists
import Verif.Spec.Continuum
import Verif.Lemmas.Riemann
import Verif.Props.Continuum
import Verif.Props.Steady
import Verif.Spec.RoundingDynamic
import Verif.Lemmas.LimitDynamic
import Verif.Props.RoundingDynamic
import Verif.Props.RoundingDynamicCase
import Verif.Props.SteadyDynamic
import Verif.Spec.Version
import Verif.Lemmas.Version
import Verif.Props.Version
import Verif.Props.VersionTells
import Verif.Props.VersionCase
import Verif.Spec.VersionArchive
import Verif.Props.VersionArchive
import Verif.Spec.Undo
import Verif.Props.Undo
import Verif.Props.UndoCase
import Verif.Props.UndoFar
import Verif.Spec.Reject
import Verif.Props.Reject
import Verif.Props.DynamicLeaves
import Verif.Props.DynamicGround
import Verif.Spec.Frame
import Verif.Props.Frame
import Verif.Spec.Order
import Verif.Props.Order
import Verif.Props.OrderNew
import Verif.Spec.Twice
import Verif.Props.Twice
import Verif.Lemmas.Together
import Verif.Props.Together
import Verif.Spec.Last
import Verif.Props.Last
import Verif.Spec.NoTrace
import Verif.Props.LastLater
import Verif.Props.Bound
import Verif.Spec.Along
import Verif.Props.Along

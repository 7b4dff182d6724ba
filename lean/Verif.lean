import Verif.Acf.Model
import Verif.Acf.Props
import Verif.AcfNew.Model
import Verif.AcfNew.Props
import Verif.Again.Props
import Verif.Alicona.Model
import Verif.Alicona.Props
import Verif.Analytic.Interpolate
import Verif.Analytic.Model
import Verif.Analytic.Props
import Verif.Analytic.Shapes
import Verif.Bccg.Lemmas
import Verif.Bccg.Mirror
import Verif.Bccg.Model
import Verif.Bccg.OneNode
import Verif.Bccg.Props
import Verif.Bccg.Similar
import Verif.Bccg.Similar2
import Verif.Bouss.Lemmas
import Verif.Bouss.Model
import Verif.Bouss.Props
import Verif.Bouss.Spec
import Verif.Cg.Finite
import Verif.Cg.Model
import Verif.Cg.Props
import Verif.Common
import Verif.Contact.Carried
import Verif.Contact.First
import Verif.Contact.Lemmas
import Verif.Contact.Load
import Verif.Contact.Props
import Verif.Contact.Spec
import Verif.ContactModel.Model
import Verif.ContactModel.Props
import Verif.Conv.BackendProps
import Verif.Conv.Backends
import Verif.Conv.Lemmas
import Verif.Conv.Model
import Verif.Conv.Props
import Verif.Conv.Spec
import Verif.Csv.Model
import Verif.Csv.Props
import Verif.Csv.Spec
import Verif.Cuda.Model
import Verif.Cuda.Props
import Verif.Definite.Fold
import Verif.Definite.Form
import Verif.Definite.Gauss
import Verif.Definite.Interf
import Verif.Definite.Loads
import Verif.Definite.Props
import Verif.Definite.Recip
import Verif.Definite.Shear
import Verif.Definite.Tangential
import Verif.Definite.Tooth
import Verif.DiscFreq.Model
import Verif.DiscFreq.Props
import Verif.Elastic.Lemmas
import Verif.Elastic.Model
import Verif.Elastic.Props
import Verif.Elastic.SharedProps
import Verif.Elastic.Sound
import Verif.Elastic.Spec
import Verif.Ellipse.Aspect
import Verif.Ellipse.Bracket
import Verif.Ellipse.Displacement
import Verif.Ellipse.Integrals
import Verif.Ellipse.Lemmas
import Verif.Ellipse.Model
import Verif.Ellipse.Props
import Verif.Ellipse.Root
import Verif.Ellipse.Round
import Verif.Ellipse.Spec
import Verif.Ellipse.Units
import Verif.Epp.Model
import Verif.Epp.Props
import Verif.Epp.Spec
import Verif.Equal.Model
import Verif.Equal.Props
import Verif.Exchange.Combined
import Verif.Exchange.Props
import Verif.Filter.Linear
import Verif.Filter.LinearProps
import Verif.Filter.Model
import Verif.Filter.Moments
import Verif.Filter.Props
import Verif.FilterState.Model
import Verif.FilterState.Props
import Verif.Fluid.Model
import Verif.Fluid.Props
import Verif.Fractal.Law
import Verif.Fractal.Lemmas
import Verif.Fractal.Model
import Verif.Fractal.Props
import Verif.Gap.Model
import Verif.Gap.Props
import Verif.HeightCache.Model
import Verif.HeightCache.Props
import Verif.HeightCache.Truth
import Verif.HeightResults.Elastic
import Verif.HeightResults.Model
import Verif.HeightResults.Props
import Verif.HeightResults.Rising
import Verif.Hertz.Exist
import Verif.Hertz.Lemmas
import Verif.Hertz.Materials
import Verif.Hertz.Model
import Verif.Hertz.Point
import Verif.Hertz.Props
import Verif.Hertz.Sound
import Verif.Hertz.Spec
import Verif.Hertz.Units
import Verif.HertzArgs.Model
import Verif.HertzArgs.Props
import Verif.HertzFull.Angle
import Verif.HertzFull.Curvature
import Verif.HertzFull.Extras
import Verif.HertzFull.Fields
import Verif.HertzFull.Hooke
import Verif.HertzFull.Loads
import Verif.HertzFull.Model
import Verif.HertzFull.Pressure
import Verif.HertzFull.ShearModel
import Verif.HertzFull.ShearProps
import Verif.HertzFull.Solution
import Verif.HertzFull.Spec
import Verif.HertzFull.Units
import Verif.Holes.Lemmas
import Verif.Holes.Model
import Verif.Holes.Props
import Verif.Holes.Rows
import Verif.InfMat.Lemmas
import Verif.InfMat.Model
import Verif.InfMat.Props
import Verif.Interference.Files
import Verif.Interference.ImProps
import Verif.Interference.Model
import Verif.Interference.Props
import Verif.Interp.Lemmas
import Verif.Interp.Model
import Verif.Interp.Props
import Verif.Interp.Spec
import Verif.Jacobian.Model
import Verif.Jacobian.Props
import Verif.Johnson.Bounded
import Verif.Johnson.BoundedFit
import Verif.Johnson.Iterations
import Verif.Johnson.LeftOut
import Verif.Johnson.Model
import Verif.Johnson.Moments
import Verif.Johnson.Props
import Verif.Johnson.Runs
import Verif.Johnson.Spec
import Verif.Johnson.Sums
import Verif.Johnson.Unbounded
import Verif.JohnsonSL.Model
import Verif.JohnsonSL.Props
import Verif.LoadControl.Memory
import Verif.LoadControl.Props
import Verif.LowPass.Model
import Verif.LowPass.Props
import Verif.LubCheck.Model
import Verif.LubCheck.Props
import Verif.LubStep.Lemmas
import Verif.LubStep.Model
import Verif.LubStep.Props
import Verif.Lubricant.Model
import Verif.Lubricant.Props
import Verif.Mask.Model
import Verif.Mask.Props
import Verif.Materials.Lemmas
import Verif.Materials.LoadProps
import Verif.Materials.Loads
import Verif.Materials.Model
import Verif.Materials.Props
import Verif.Memo.Model
import Verif.Memo.Props
import Verif.Mixed.Model
import Verif.Mixed.Props
import Verif.ModelSteps.Model
import Verif.ModelSteps.Props
import Verif.Outputs.Model
import Verif.Outputs.Props
import Verif.Outputs.Search
import Verif.Outputs.SearchProps
import Verif.Outputs.Store
import Verif.Outputs.StoreProps
import Verif.Perez.Init
import Verif.Perez.InitProps
import Verif.Perez.Model
import Verif.Perez.Props
import Verif.Perez.StopProps
import Verif.ProbFreq.Model
import Verif.ProbFreq.Props
import Verif.PyDict
import Verif.Quasi.CachedProps
import Verif.Quasi.Lemmas
import Verif.Quasi.LoadProps
import Verif.Quasi.Model
import Verif.Quasi.Props
import Verif.Repr.Model
import Verif.Repr.Props
import Verif.Reynolds.Model
import Verif.Reynolds.Props
import Verif.Reynolds.Spec
import Verif.ReynoldsNew.Cavitation
import Verif.ReynoldsNew.Mass
import Verif.ReynoldsNew.Model
import Verif.ReynoldsNew.Props
import Verif.ReynoldsNew.Regular
import Verif.ReynoldsNew.Tri
import Verif.Rough.Bearing
import Verif.Rough.BearingProps
import Verif.Rough.Levelled
import Verif.Rough.Methods
import Verif.Rough.Params
import Verif.Rough.Poly
import Verif.Rough.Props
import Verif.Rough.Summits
import Verif.Rough.Texture
import Verif.Rough.TextureProps
import Verif.Rough.Turned
import Verif.Rough.TurnedBearing
import Verif.Rough.Units
import Verif.Rough.Values
import Verif.RunFiles.Model
import Verif.RunFiles.Props
import Verif.Show.Model
import Verif.Show.Props
import Verif.SlipMemo.Elastic
import Verif.SlipMemo.Model
import Verif.SlipMemo.Props
import Verif.Spectra.Model
import Verif.Spectra.Props
import Verif.Static.Model
import Verif.Static.Props
import Verif.Steps.CheckOutputProps
import Verif.Steps.CheckProps
import Verif.Steps.Model
import Verif.Steps.SaveLemmas
import Verif.Steps.SaveProps
import Verif.Steps.Spec
import Verif.Stiffness.Elastic
import Verif.Stiffness.Model
import Verif.Stiffness.Props
import Verif.SubNames.Model
import Verif.SubNames.Props
import Verif.SurfArith.Model
import Verif.SurfArith.Props
import Verif.SurfaceGeo.Model
import Verif.SurfaceGeo.New
import Verif.SurfaceGeo.NewProps
import Verif.SurfaceGeo.Props
import Verif.SurfaceGeo.Spec
import Verif.Tangential.Model
import Verif.Tangential.Props
import Verif.Tdma.Dominant
import Verif.Tdma.Model
import Verif.Tdma.Props
import Verif.Tdma.Spec
import Verif.Tst.FileProps
import Verif.Tst.Model
import Verif.Tst.Props
import Verif.Wear.Model
import Verif.Wear.Props
import Verif.Wear.Spec
import Verif.XReal

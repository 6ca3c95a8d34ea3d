import Verif.Params.Props
import Verif.Params.Props2
import Verif.Params.Props3
import Verif.Cache.Props
import Verif.Patch.Props
import Verif.Opt.Props
import Verif.Engine.Props
import Verif.Lsq.Props
import Verif.Lsq.PropsSmarter
import Verif.Src.Props
import Verif.Coords.Props
import Verif.IntImg.Props
import Verif.Psf.Props
import Verif.Roi.Props
import Verif.Sky.Props
import Verif.Ceres.Props
import Verif.Ceres.PropsPhot
import Verif.Ceres.PropsOneImage
import Verif.Psf.PropsLanczos
import Verif.Mog.Props
import Verif.Mog.PropsFourier
import Verif.Forced.Props
import Verif.Forced.PropsGetims
import Verif.Forced.PropsIv
import Verif.Forced.PropsStats
import Verif.Ell.Props
import Verif.Ell.PropsCov
import Verif.Bright.Props
import Verif.Bright.PropsBands
import Verif.Bright.PropsCounts
import Verif.Multi.Props
import Verif.Multi.PropsPickle
import Verif.Multi.PropsSettings
import Verif.Gal.PropsMask
import Verif.Gal.PropsFree
import Verif.Gal.PropsSplit
import Verif.Approx.Props
import Verif.Approx.PropsRound
import Verif.Approx.PropsStart
import Verif.Gauss.PropsValue
import Verif.Gauss.PropsFourier
import Verif.Gauss.PropsConv
import Verif.Tile.Props
import Verif.Em.Props
import Verif.Em.PropsFlux
import Verif.Em.PropsSky
import Verif.Gpu.Model
import Verif.Gpu.Spec
import Verif.Gpu.Lemmas
import Verif.Gpu.Lemmas2
import Verif.Gpu.Lemmas3
import Verif.Gpu.Lemmas4
import Verif.Gpu.Props
import Verif.Gpu.Try
import Verif.Gpu.TrySpec
import Verif.Gpu.TryLemmas
import Verif.Gpu.TryLemmas2
import Verif.Gpu.TryLemmas3
import Verif.Gpu.TryLemmas4
import Verif.Gpu.PropsTry
import Verif.Gpu.Prof
import Verif.Gpu.ProfSpec
import Verif.Gpu.ProfLemmas
import Verif.Gpu.ProfLemmas2
import Verif.Gpu.ProfLemmas3
import Verif.Gpu.PropsProf
import Verif.Gpu.Update
import Verif.Gpu.UpdateSpec
import Verif.Gpu.UpdateLemmas
import Verif.Gpu.UpdateLemmas2
import Verif.Gpu.UpdateLemmas3
import Verif.Gpu.UpdateLemmas4
import Verif.Gpu.UpdateLemmas5
import Verif.Gpu.PropsUpdate
import Verif.Sky.Spline
import Verif.Sky.SplineSpec
import Verif.Sky.SplineLemmas
import Verif.Sky.PropsSpline
import Verif.Gal.Composite
import Verif.Gal.CompositeSpec
import Verif.Gal.CompositeLemmas
import Verif.Gal.PropsComposite
import Verif.Gal.SersicTable
import Verif.Gal.Sersic
import Verif.Gal.SersicSpec
import Verif.Gal.SersicLemmas
import Verif.Gal.PropsSersic
import Verif.Src.Sersic
import Verif.Src.SersicSpec
import Verif.Src.PropsSersic
import Verif.Src.Moving
import Verif.Src.MovingSpec
import Verif.Src.MovingLemmas
import Verif.Src.PropsMoving
import Verif.Psf.Over
import Verif.Psf.OverSpec
import Verif.Psf.OverLemmas
import Verif.Psf.PropsOver
import Verif.Psf.Varying
import Verif.Psf.VaryingSpec
import Verif.Psf.VaryingLemmas
import Verif.Psf.PropsVarying
import Verif.Circ.Model
import Verif.Circ.Spec
import Verif.Circ.Lemmas
import Verif.Circ.Props
import Verif.Img.Fits
import Verif.Img.Spec
import Verif.Img.Lemmas
import Verif.Img.Props
import Verif.Wise.Model
import Verif.Wise.Spec
import Verif.Wise.Lemmas
import Verif.Wise.Props
import Verif.Sfd.Model
import Verif.Sfd.Spec
import Verif.Sfd.Lemmas
import Verif.Sfd.Props
import Verif.Key.Model
import Verif.Key.Spec
import Verif.Key.Lemmas
import Verif.Key.Props
import Verif.Coords.Tan
import Verif.Coords.SpecTan
import Verif.Coords.LemmasTan
import Verif.Coords.PropsTan
import Verif.Src.Core
import Verif.Src.SpecCore
import Verif.Src.LemmasCore
import Verif.Src.PropsCore
import Verif.Bin.Model
import Verif.Bin.Spec
import Verif.Bin.Lemmas
import Verif.Bin.Props
import Verif.Atlas.Model
import Verif.Atlas.Spec
import Verif.Atlas.Lemmas
import Verif.Atlas.Props
import Verif.Params.State
import Verif.Params.SpecState
import Verif.Params.LemmasState
import Verif.Params.PropsState
import Verif.Sdss.Model
import Verif.Sdss.Spec
import Verif.Sdss.Lemmas
import Verif.Sdss.Props
import Verif.Sext.Model
import Verif.Sext.Spec
import Verif.Sext.Lemmas
import Verif.Sext.Props
import Verif.Sdss.Wcs
import Verif.Sdss.SpecWcs
import Verif.Sdss.LemmasWcs
import Verif.Sdss.PropsWcs
import Verif.Cfht.Model
import Verif.Cfht.Lemmas
import Verif.Cfht.Props
import Verif.Odict.Ops
import Verif.Odict.Model
import Verif.Odict.Spec
import Verif.Odict.Lemmas
import Verif.Odict.Lemmas2
import Verif.Odict.Lemmas3
import Verif.Odict.Cached
import Verif.Odict.Props
import Verif.Em1.Model
import Verif.Em1.Spec
import Verif.Em1.Lemmas
import Verif.Em1.Lemmas2
import Verif.Em1.Props
import Verif.Linmod.Model
import Verif.Linmod.Lemmas
import Verif.Linmod.Props
import Verif.Sbright.Model
import Verif.Sbright.Lemmas
import Verif.Sbright.Props
import Verif.Fpfit.Model
import Verif.Fpfit.Lemmas
import Verif.Fpfit.Lsq
import Verif.Fpfit.Props
import Verif.Fpfit.Dir
import Verif.Fpfit.DirLemmas
import Verif.Fpfit.DirLemmas2
import Verif.Fpfit.DirLemmas3
import Verif.Fpfit.PropsDir
import Verif.Read.Model
import Verif.Read.Lemmas
import Verif.Read.Props
import Verif.Read.PropsSdss
import Verif.Prof.Model
import Verif.Prof.Lemmas
import Verif.Prof.Props
import Verif.Prof.PropsPhoto
import Verif.Fit.Model
import Verif.Fit.Spec
import Verif.Fit.Lemmas
import Verif.Fit.Lemmas2
import Verif.Fit.Lemmas3
import Verif.Fit.Lemmas4
import Verif.Fit.Props
import Verif.Cons.Model
import Verif.Cons.Spec
import Verif.Cons.Lemmas
import Verif.Cons.Lemmas2
import Verif.Cons.Props
import Verif.Pfile.Model
import Verif.Pfile.Spec
import Verif.Pfile.Props
import Verif.Pfile.Grid
import Verif.Pfile.PropsGrid
import Verif.Wcat.Model
import Verif.Wcat.Spec
import Verif.Wcat.Props
import Verif.Fpfit.Recover
import Verif.Fpfit.Recover2
import Verif.Fpfit.PropsRecover
import Verif.Fpfit.Scatter
import Verif.Fpfit.PropsScatter
import Verif.Fpfit.Groups
import Verif.Fpfit.PropsGroups
import Verif.Fpfit.Units
import Verif.Fpfit.PropsUnits
import Verif.Fit.Truth
import Verif.Fit.PropsTruth
import Verif.Fit.Var
import Verif.Fit.PropsVar
import Verif.Fit.Smooth
import Verif.Fit.PropsSmooth
import Verif.Fit.Order
import Verif.Fit.PropsOrder
import Verif.Fit.Masked
import Verif.Fit.PropsMasked
import Verif.Lsq.Damped
import Verif.Fit.Damped
import Verif.Fit.PropsDamped
import Verif.Fit.Pool
import Verif.Fit.PropsPool
import Verif.Fit.Recast
import Verif.Fit.PropsRecast
import Verif.Fit.Fail
import Verif.Fit.PropsFail
import Verif.Fit.Turns
import Verif.Fit.Turns2
import Verif.Fit.PropsTurns
import Verif.Fit.Passes
import Verif.Fit.PropsPasses
import Verif.Coords.Tangent
import Verif.Coords.PropsTangent
import Verif.Fit.Chain
import Verif.Fit.PropsChain
import Verif.Star.Model
import Verif.Star.Spec
import Verif.Star.Lemmas
import Verif.Star.Props
import Verif.Star.PropsMin
import Verif.Star.PropsGal
import Verif.Star.Derivs
import Verif.Star.PropsDerivs
import Verif.Star.SeenSpec
import Verif.Star.SeenLemmas
import Verif.Star.PropsSeen
import Verif.Star.GalDerivs
import Verif.Star.PropsGalDerivs
import Verif.Star.MomentSpec
import Verif.Star.MomentLemmas
import Verif.Star.PropsMoment
import Verif.Star.Mixed
import Verif.Star.Whole
import Verif.Star.Light
import Verif.Star.LightMixed
import Verif.Star.PropsWhole
import Verif.Star.PropsTruth
import Verif.Star.PropsMixed
import Verif.Star.PropsUnmasked
import Verif.Star.PropsSame
import Verif.Gpu.Choose
import Verif.Gpu.PropsChoose
import Verif.Scal.Model
import Verif.Scal.Props
import Verif.Galex.Model
import Verif.Galex.Props
import Verif.Wmask.Model
import Verif.Wmask.Props
import Verif.Wgrid.Model
import Verif.Wgrid.Props
import Verif.Wcut.Model
import Verif.Wcut.Props
import Verif.Wroi.Model
import Verif.Wroi.Props
import Verif.Hyb.Model
import Verif.Hyb.Props

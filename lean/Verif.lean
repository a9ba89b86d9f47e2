import Verif.Props.Triweight
import Verif.Props.Utils
import Verif.Props.AgeWeights
import Verif.Props.SspWeights
import Verif.Props.Burst
import Verif.Props.Metallicity
import Verif.Props.Imf
import Verif.Props.Cosmology
import Verif.Props.Photometry
import Verif.Props.Dust
import Verif.Props.Blackbody
import Verif.Props.EquivalentWidth
import Verif.Props.EmLines
import Verif.Props.Loaders
import Verif.Props.RoundTrip
import Verif.Props.FakeData
import Verif.Props.Fsps
import Verif.Props.NonFinite
import Verif.Props.NonFiniteSed
import Verif.Props.NonFinitePhot
import Verif.Lemmas.SearchSorted
import Verif.Props.RandomParams
import Verif.Props.RandomDist
import Verif.Props.Misc
import Verif.Props.Smooth
import Verif.Props.SmoothBurst
import Verif.Props.SmoothCosmo
import Verif.Lemmas.AgeClosed
import Verif.Props.CosmoAge
import Verif.Lemmas.W0wa
import Verif.Props.CosmoW0wa
import Verif.Fl
import Verif.Model.Rounded
import Verif.Lemmas.Fl
import Verif.Lemmas.Round
import Verif.Props.Rounding
import Verif.Flt
import Verif.Rev
import Verif.Model.Gen
import Verif.Model.GenMore
import Verif.Lemmas.Rev
import Verif.Lemmas.GenCheck
import Verif.Lemmas.GenUtils
import Verif.Lemmas.GenSed
import Verif.Lemmas.GenPhot
import Verif.Lemmas.GenMore
import Verif.Props.Gradients
import Verif.Props.GradPhot
import Verif.Props.NanGrad
import Verif.Props.GradMore
import Verif.Props.GradPipeline
import Verif.Model.Imports
import Verif.Lemmas.Imports
import Verif.Props.Imports
import Verif.Props.FakeProb
import Verif.Model.JitHistory
import Verif.Props.JitHistory
import Verif.Model.RoundedSed
import Verif.Lemmas.RoundSed
import Verif.Props.RoundAge
import Verif.Lemmas.RoundMet
import Verif.Props.RoundMet
import Verif.Lemmas.RoundJoint
import Verif.Props.RoundSed
import Verif.Props.RoundMag
import Verif.SpecSvd
import Verif.Cases
import Verif.Model.JaxLstsq
import Verif.Lemmas.Svd
import Verif.Props.EwCutoff
import Verif.Model.RoundedCosmo
import Verif.Lemmas.Close
import Verif.Lemmas.RoundCosmo
import Verif.Lemmas.RoundCosmoQuad
import Verif.Props.RoundCosmo
import Verif.Props.RoundCosmoBits
import Verif.Model.RoundedObs
import Verif.Lemmas.RoundObs
import Verif.Props.RoundObs
import Verif.Props.RoundObsBits
import Verif.Nd
import Verif.Model.NdSed
import Verif.Model.NdCosmo
import Verif.Model.NdPhot
import Verif.Lemmas.Nd
import Verif.Lemmas.NdSed
import Verif.Lemmas.NdFlux
import Verif.Lemmas.NdArgs
import Verif.Lemmas.NdBatch
import Verif.Lemmas.NdTrapz
import Verif.Lemmas.NdCosmo
import Verif.Lemmas.NdPhot
import Verif.Props.Shapes
import Verif.Props.ShapesCosmo
import Verif.Props.ShapesPhot
import Verif.Model.PlotMzr
import Verif.Props.PlotMzr
import Verif.Range
import Verif.Lemmas.Range
import Verif.Model.GenBlackbody
import Verif.Props.GradBlackbody
import Verif.Model.WriteScript
import Verif.Props.WriteScript
import Verif.Model.IntGrid
import Verif.Props.IntGrid
import Verif.Props.RoundBlackbody
import Verif.Props.RoundDust
import Verif.Lemmas.NdElemFun
import Verif.Props.ShapesElem
import Verif.Model.NdBurst
import Verif.Props.ShapesBurst
import Verif.Props.EwMore
import Verif.Model.XFEw
import Verif.Props.NonFiniteEw
import Verif.Model.RoundedMzr
import Verif.Lemmas.NearSig
import Verif.Props.RoundMzr
import Verif.Props.RoundMzrBits
import Verif.Props.RoundInverse
import Verif.Props.RoundMzrCases
import Verif.Model.RoundedBurst
import Verif.Props.RoundBurst
import Verif.Props.RoundBurstBits
import Verif.Props.RoundBurstTrip
import Verif.Props.Units
import Verif.Props.RefineSfh
import Verif.Props.RefineSed
import Verif.Props.RefinePhot
import Verif.Props.Superpose
import Verif.Props.DustMag
import Verif.Props.MetShift
import Verif.Props.Aging
import Verif.Props.BurstShift
import Verif.Props.Tabulate
import Verif.Props.ShapesEw
import Verif.Props.SspPhot
import Verif.Props.GradInverse
import Verif.Props.GradEw
import Verif.Props.RoundMisc
import Verif.Props.Perturb
import Verif.Props.CosmoSens
import Verif.Props.MetSens
import Verif.Props.GridRefine
import Verif.Props.ForwardLimit
import Verif.Props.BurstGrid
import Verif.Props.ForwardMode
import Verif.Props.Hessian
import Verif.Props.Responds
import Verif.Props.GradPopulation
import Verif.Props.RangeObs
import Verif.Props.Cases
import Verif.Props.RangeSed
import Verif.Props.RangeModels
import Verif.Props.SecondOrder
import Verif.Props.BirthRate
import Verif.Props.HistoryMag
import Verif.Props.HistoryMet
import Verif.Props.HistoryBurst
import Verif.Props.HistoryCosmo

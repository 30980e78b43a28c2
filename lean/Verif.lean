import Verif.Props.Published
import Verif.Props.HSVFloat
import Verif.Props.Svd
import Verif.Props.Solver
import Verif.Props.Sqrt
import Verif.Props.Float
import Verif.Props.Spectrum
import Verif.Props.Stream
import Verif.Props.OTF
import Verif.Props.E00
import Verif.Props.CT
import Verif.Props.HSV
import Verif.Props.Yxy
import Verif.Props.Lab
import Verif.Props.Gamut
import Verif.Props.Matrix
import Verif.Lemmas.Matrix
import Verif.Model.Tristimulus
import Verif.Model.Gamut
import Verif.Model.OTF
import Verif.Model.Delta
import Verif.Props.Defined
import Verif.Props.CCT
import Verif.Props.CIEDE
import Verif.Props.Charts
import Verif.Props.SpectrumFloat
import Verif.Props.GamutFloat
import Verif.Props.Triangle
import Verif.Props.OTFFloat
import Verif.Props.PQFloat
import Verif.Props.Hue
import Verif.Props.HSVRound
import Verif.Props.HLGFloat
import Verif.Props.DeltaFloat
import Verif.Props.LabFloat
import Verif.Props.YxyFloat
import Verif.Props.MixedCT
import Verif.Props.MixedPlanck
import Verif.Props.SLogFloat
import Verif.Props.OklabFloat
import Verif.Props.Exposure
import Verif.Props.PublishedFloat
import Verif.Props.ICtCpFloat
import Verif.Props.DeltaBounds
import Verif.Props.OklabPublished
import Verif.Props.MixedCCT
import Verif.Props.Mixture
import Verif.Props.LabLaws
import Verif.Props.E00Float
import Verif.Props.FetchFloat
import Verif.Props.InvertFloat
import Verif.Props.BradfordFloat
import Verif.Props.ImageFloat
import Verif.Props.ImageSpaces
import Verif.Props.MonoFloat
import Verif.Props.VideoFloat
import Verif.Props.Recover
import Verif.Props.HDRFloat
import Verif.Props.Greys
import Verif.Props.Colorimetry
import Verif.Props.Transcode
import Verif.Props.HSVBack
import Verif.Props.LabBack
import Verif.Props.PrimariesFloat
import Verif.Props.Crosstalk
import Verif.Props.Warm
import Verif.Props.Planckian
import Verif.Props.Reproduce
import Verif.Props.Metamers
import Verif.Props.Lightness
import Verif.Props.MonotoneFloat
import Verif.Props.BlackBodyFloat
import Verif.Props.PolarFloat
import Verif.Props.PythagFloat
import Verif.Props.LightnessFloat
import Verif.Props.StreamMixed
import Verif.Props.StreamHostile
import Verif.Props.HLGImages
import Verif.Props.SLogImages
import Verif.Props.SRGBinHLG
import Verif.Props.Pipeline
import Verif.Props.Solid
import Verif.Props.BackSubst
import Verif.Props.Order
import Verif.Props.Adapted
import Verif.Props.ICtCpDelta
import Verif.Props.EncOrder
import Verif.Props.SRGBinPQ
import Verif.Props.BT709inPQ
import Verif.Validation

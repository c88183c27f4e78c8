import Verif.Props.Image
import Verif.Props.Bcn
import Verif.Props.Bc7
import Verif.Props.Bc6
import Verif.Props.Etc
import Verif.Props.Atc
import Verif.Props.Pvrtc
import Verif.Props.Astc
import Verif.Props.CrnHeader
import Verif.Props.CrnCodes
import Verif.Props.Crunch
import Verif.Props.UnityCrunch
import Verif.Props.BlockApi
import Verif.Props.Target32
import Verif.Props.Oversize
import Verif.Props.CrnSizes
import Verif.Props.AllFunctions
import Verif.Props.Memory
import Verif.Props.Python
import Verif.Props.AstcLocality
import Verif.Props.AnyBlocks
import Verif.Props.BcnStandard
import Verif.Props.Bands
import Verif.Props.PythonWrap
import Verif.Props.CrnChecksum
import Verif.Props.CrnTruncated
import Verif.Props.Target32More
import Verif.Props.Builds
import Verif.Props.BuildsPython
import Verif.Props.CrnStandard
import Verif.Props.FlipEtc
import Verif.Props.PvrtcUsed
import Verif.Props.Termination
import Verif.Props.CrnMemory
import Verif.Props.Channels
import Verif.Props.Move
import Verif.Props.CrnDimensions
import Verif.Props.CrnDamage
import Verif.Props.UnityDamage
import Verif.Props.Store
import Verif.Props.CrnRoundTrip
import Verif.Props.UnityRoundTrip
import Verif.Props.StoreMore
import Verif.Props.StoreBc6
import Verif.Props.StoreBc7
import Verif.Props.StoreGradient
import Verif.Props.StoreAstc
import Verif.Props.UnityEtcRoundTrip
import Verif.Props.UnityEtcModes
import Verif.Props.CrnPictures
import Verif.Props.CrnVariants
import Verif.Props.FewColours
import Verif.Props.Recolour
import Verif.Props.Cut
import Verif.Props.CrnMoved
import Verif.Props.Halves

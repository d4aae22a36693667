import Verif.Data.Layout
import Verif.Data.Flex
import Verif.Data.Adj
import Verif.Data.PtToEn

import Verif.Model.InterpArith
import Verif.Model.InterpLogic
import Verif.Model.InterpBit
import Verif.Model.InterpShift
import Verif.Model.InterpControl
import Verif.Model.InterpMove

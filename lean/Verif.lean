import Verif.Model.DualQuaternion
import Verif.Model.GenLoops
import Verif.Model.Utils
import Verif.Model.GenVec
import Verif.Model.GenM22
import Verif.Model.GenM33
import Verif.Model.GenM44
import Verif.Model.GenM55
import Verif.Model.GenM66
import Verif.Model.Construct
import Verif.Model.Display
import Verif.Model.Examples
import Verif.Conformance
import Verif.IeeeConformance
import Verif.Exact
import Verif.Audit

import Verif.Model.Basic
import Verif.Model.Types
import Verif.Model.LoadBalancer
import Verif.Model.RefMap
import Verif.Model.ChemistryModel
import Verif.Model.World
import Verif.Model.Seulex
import Verif.Model.Shipped
import Verif.Spec.Seulex
import Verif.Spec.Mechanism
import Verif.Lemmas.World
import Verif.Props.Balancer
import Verif.Props.UnitTests
import Verif.Audit

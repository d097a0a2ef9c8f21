import Verif.Model.Transform2
import Verif.Model.Transform3

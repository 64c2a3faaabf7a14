import Verif.Loop.Props
import Verif.Loop.Anon

import Verif.Lemmas.GameData.Check
import Verif.Model.GameData.Ast

/-!
# AST: the class description passes the check for all listed versions
-/

namespace Ama.GameData.Ast

theorem checked : ∀ e ∈ listed, check (exempt "AST" e.level) (job e) = true := by
  decide +kernel

end Ama.GameData.Ast

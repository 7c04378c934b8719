import Verif.Model.Ast
import Verif.Model.Nom

/-!
# Printing in the crate
-/

namespace NomSparql

/-- `impl fmt::Display for SparqlQuery`, src/query/mod.rs:29-33: the body is `unimplemented!()`.  The result is the text written, as value of a `Res` without
rest. -/
def displayQuery (_q : SparqlQuery) : Res Str := .err .panic

end NomSparql

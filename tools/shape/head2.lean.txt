import Verif.Lemmas.ShapeBuild2
/-!
Shapes of what the functions of the builder return: each function as the grammar calls it. The statements are generated from the
table of `ShapeFn.lean`.
-/
namespace Verif
open Builder Shape Grammar

variable {g : Prop} {ext : BldExt} {indent : Int}

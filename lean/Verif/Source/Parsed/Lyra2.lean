import Verif.Source.Crate

/-! The kernel runs the parser on src/lyra2.rs. -/

namespace Source
open Lean Meta

run_meta check "lyra2" c!"lyra2" ``inferred ``Text.lyra2 Text.lyra2

end Source

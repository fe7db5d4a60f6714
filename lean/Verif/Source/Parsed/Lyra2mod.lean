import Verif.Source.Crate

/-! The kernel runs the parser on src/lyra2mod.rs. -/

namespace Source
open Lean Meta

run_meta check "lyra2mod" c!"lyra2mod" ``inferred ``Text.lyra2mod Text.lyra2mod

end Source

import Verif.Source.Crate

/-! The kernel runs the parser on src/bmw.rs. -/

namespace Source
open Lean Meta

run_meta check "bmw" c!"bmw" ``inferred ``Text.bmw Text.bmw

end Source

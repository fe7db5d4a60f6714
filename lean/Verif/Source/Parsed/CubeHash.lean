import Verif.Source.Crate

/-! The kernel runs the parser on src/cubehash.rs. -/

namespace Source
open Lean Meta

run_meta check "cubehash" c!"cubehash" ``inferred ``Text.cubehash Text.cubehash

end Source

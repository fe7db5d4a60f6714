import Verif.Source.Crate

/-! The kernel runs the parser on src/utils.rs, src/lyra2re.rs, src/lyra2rev2.rs, src/lyra2rev3.rs, src/lyra2z.rs. -/

namespace Source
open Lean Meta

run_meta check "utils" c!"utils" ``inferred ``Text.utils Text.utils
run_meta check "lyra2re" c!"lyra2re" ``inferred ``Text.lyra2re Text.lyra2re
run_meta check "lyra2rev2" c!"lyra2rev2" ``inferred ``Text.lyra2rev2 Text.lyra2rev2
run_meta check "lyra2rev3" c!"lyra2rev3" ``inferred ``Text.lyra2rev3 Text.lyra2rev3
run_meta check "lyra2z" c!"lyra2z" ``inferred ``Text.lyra2z Text.lyra2z

end Source

import Verif.Source.Command
import Verif.Source.Text

/-!
# The crate as syntax

The functions of /repo/src, as the parser reads them from `Source.Text`.
-/

namespace Source

/-- The types that the Rust compiler infers for the variables that are declared without a type and initialised with
literals only: in `squeeze` of lyra2 and lyra2mod, in `lyra2` and `lyra2mod`, in `sum` of cubehash and of bmw. -/
def inferred : List (Nat × Nat × Ty) :=
  [(c!"squeeze", c!"tmp", .vec .u8),
   (c!"squeeze", c!"out", .vec .u8),
   (c!"lyra2", c!"ptr_word", .int .usize),
   (c!"lyra2mod", c!"ptr_word", .int .usize),
   (c!"sum", c!"buf", .vec .u8),
   (c!"sum", c!"out", .vec .u8)]

run_meta define "utils" (Parser.parse c!"utils" inferred Text.utils)
run_meta define "lyra2" (Parser.parse c!"lyra2" inferred Text.lyra2)
run_meta define "lyra2mod" (Parser.parse c!"lyra2mod" inferred Text.lyra2mod)
run_meta define "cubehash" (Parser.parse c!"cubehash" inferred Text.cubehash)
run_meta define "bmw" (Parser.parse c!"bmw" inferred Text.bmw)
run_meta define "lyra2re" (Parser.parse c!"lyra2re" inferred Text.lyra2re)
run_meta define "lyra2rev2" (Parser.parse c!"lyra2rev2" inferred Text.lyra2rev2)
run_meta define "lyra2rev3" (Parser.parse c!"lyra2rev3" inferred Text.lyra2rev3)
run_meta define "lyra2z" (Parser.parse c!"lyra2z" inferred Text.lyra2z)

/-- All functions and constants of the crate. -/
def crate : List Fn :=
  utils.all ++ lyra2.all ++ lyra2mod.all ++ cubehash.all ++ bmw.all ++ lyra2re.all ++ lyra2rev2.all ++ lyra2rev3.all ++ lyra2z.all

end Source

import Verif.Spec.Chains
import Verif.Spec.Blake256
import Verif.Spec.Keccak256
import Verif.Spec.Skein512
import Verif.Spec.Groestl256

/-! The published hash chains with all digests specified, as functions of a byte string. -/

namespace Spec.Published

/-- Lyra2RE. -/
def lyra2re : List Byte → List Byte := Chains.lyra2re Blake256.hash Keccak256.hash Skein512.hash Groestl256.hash
/-- Lyra2REv2. -/
def lyra2rev2 : List Byte → List Byte := Chains.lyra2rev2 Blake256.hash Keccak256.hash Skein512.hash
/-- Lyra2REv3. -/
def lyra2rev3 : List Byte → List Byte := Chains.lyra2rev3 Blake256.hash
/-- Lyra2Z. -/
def lyra2z : List Byte → List Byte := Chains.lyra2z Blake256.hash

end Spec.Published

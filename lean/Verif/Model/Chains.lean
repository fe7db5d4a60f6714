import Verif.Model.Lyra2
import Verif.Model.Lyra2mod
import Verif.Model.CubeHash
import Verif.Model.Bmw

/-! Models of `/repo/src/lyra2re.rs`, `lyra2rev2.rs`, `lyra2rev3.rs` and `lyra2z.rs`. -/

namespace Model.Chains
open Rust

/-- The hash functions of other crates that the chains call. They are not part of this repository, so the chains are
modelled for arbitrary functions: `blake256 x` stands for `blake_hash::Blake256::digest(&x).to_vec()`, `keccak256 x` for
`sha3::Keccak256::digest(x).to_vec()`, `skein512_256 x` for `skein_hash::Skein512::<U32>::digest(&x).to_vec()` and
`groestl256 x` for `groestl::Groestl256::digest(x).to_vec()`. -/
structure Digests where
  blake256 : List U8 → List U8
  keccak256 : List U8 → List U8
  skein512_256 : List U8 → List U8
  groestl256 : List U8 → List U8

namespace Lyra2re

/-- `lyra2re::sum`, src/lyra2re.rs:23-35. -/
def sum (p : Profile) (d : Digests) (input : List U8) : Res (List U8) := do
  let result_blake := d.blake256 input
  let result_keccak256_1 := d.keccak256 result_blake
  let result_keccak256_2 := result_keccak256_1
  let result_lyra2 ← Lyra2.lyra2 p 32 result_keccak256_1 result_keccak256_2 1 8 8
  let result_skein := d.skein512_256 result_lyra2
  pure (d.groestl256 result_skein)

end Lyra2re

namespace Lyra2rev2

/-- `lyra2rev2::sum`, src/lyra2rev2.rs:25-39. -/
def sum (p : Profile) (d : Digests) (input : List U8) : Res (List U8) := do
  let result_blake := d.blake256 input
  let result_keccak256 := d.keccak256 result_blake
  let result_cube ← CubeHash.sum result_keccak256
  let result_lyra2 ← Lyra2.sum p result_cube
  let result_skein := d.skein512_256 result_lyra2
  let result_cube3 ← CubeHash.sum result_skein
  Bmw.sum result_cube3

end Lyra2rev2

namespace Lyra2rev3

/-- `lyra2rev3::sum`, src/lyra2rev3.rs:23-33. -/
def sum (p : Profile) (d : Digests) (input : List U8) : Res (List U8) := do
  let result_blake := d.blake256 input
  let result_lyra2_mod_1 ← Lyra2mod.sum p result_blake
  let result_cube ← CubeHash.sum result_lyra2_mod_1
  let result_lyra2_mod_2 ← Lyra2mod.sum p result_cube
  Bmw.sum result_lyra2_mod_2

end Lyra2rev3

namespace Lyra2z

/-- `lyra2z::sum`, src/lyra2z.rs:21-27. -/
def sum (p : Profile) (d : Digests) (input : List U8) : Res (List U8) := do
  let result_blake_1 := d.blake256 input
  let result_blake_2 := result_blake_1
  Lyra2.lyra2 p 32 result_blake_1 result_blake_2 8 8 8

end Lyra2z

end Model.Chains

import Verif.Model.Chains
import Verif.Model.Log

/-!
The chains (`/repo/src/lyra2re.rs`, `lyra2rev2.rs`, `lyra2rev3.rs`, `lyra2z.rs`) once more, with the log of `Model/Log.lean`.

The functions are those of `Model/Chains.lean`; a call of `lyra2` or `lyra2mod` appends its log. The other stages log nothing: CubeHash
and BMW-256 have no matrix, and the digests of other crates are functions of their input here.
-/

namespace Model.Log.Chains
open Rust
open Model.Chains (Digests)

/-- `lyra2::sum`, src/lyra2.rs:669-672. -/
def lyra2Sum (p : Profile) (input : List U8) : Logged (List U8) := lyra2 p 32 input input 1 4 4

/-- `lyra2mod::sum`, src/lyra2mod/mod.rs:634-637. -/
def lyra2modSum (p : Profile) (input : List U8) : Logged (List U8) := lyra2mod p 32 input input 1 4 4

/-- `lyra2re::sum`, src/lyra2re.rs:23-35. -/
def lyra2re (p : Profile) (d : Digests) (input : List U8) : Logged (List U8) := do
  let result_blake := d.blake256 input
  let result_keccak256_1 := d.keccak256 result_blake
  let result_keccak256_2 := result_keccak256_1
  let result_lyra2 ← lyra2 p 32 result_keccak256_1 result_keccak256_2 1 8 8
  let result_skein := d.skein512_256 result_lyra2
  pure (d.groestl256 result_skein)

/-- `lyra2rev2::sum`, src/lyra2rev2.rs:25-39. -/
def lyra2rev2 (p : Profile) (d : Digests) (input : List U8) : Logged (List U8) := do
  let result_blake := d.blake256 input
  let result_keccak256 := d.keccak256 result_blake
  let result_cube ← quiet (CubeHash.sum result_keccak256)
  let result_lyra2 ← lyra2Sum p result_cube
  let result_skein := d.skein512_256 result_lyra2
  let result_cube3 ← quiet (CubeHash.sum result_skein)
  quiet (Bmw.sum result_cube3)

/-- `lyra2rev3::sum`, src/lyra2rev3.rs:23-33. -/
def lyra2rev3 (p : Profile) (d : Digests) (input : List U8) : Logged (List U8) := do
  let result_blake := d.blake256 input
  let result_lyra2_mod_1 ← lyra2modSum p result_blake
  let result_cube ← quiet (CubeHash.sum result_lyra2_mod_1)
  let result_lyra2_mod_2 ← lyra2modSum p result_cube
  quiet (Bmw.sum result_lyra2_mod_2)

/-- `lyra2z::sum`, src/lyra2z.rs:21-27. -/
def lyra2z (p : Profile) (d : Digests) (input : List U8) : Logged (List U8) := do
  let result_blake_1 := d.blake256 input
  let result_blake_2 := result_blake_1
  lyra2 p 32 result_blake_1 result_blake_2 8 8 8

end Model.Log.Chains

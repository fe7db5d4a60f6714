import Verif.Model.Target

/-! The functions of other crates that the source calls. -/

namespace Source
open Rust Model.Chains

/-- The names under which the source calls the digests of other crates. -/
def digests (dg : Digests) (name : String) : Option (List U8 → List U8) :=
  if name = "blake_hash::Blake256::digest" then some dg.blake256
  else if name = "sha3::Keccak256::digest" then some dg.keccak256
  else if name = "skein_hash::Skein512::<U32>::digest" then some dg.skein512_256
  else if name = "groestl::Groestl256::digest" then some dg.groestl256
  else none

/-- The digests return sequences that fit into the memory of a target whose `usize` has `u` bits. -/
structure Slices (u : Nat) (dg : Digests) : Prop where
  blake256 : ∀ x, (dg.blake256 x).length ≤ Model.Target.isizeMax u
  keccak256 : ∀ x, (dg.keccak256 x).length ≤ Model.Target.isizeMax u

end Source

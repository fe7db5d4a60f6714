import Verif.Spec.Lyra2
import Verif.Spec.CubeHash
import Verif.Spec.Bmw

/-! The published hash chains Lyra2RE, Lyra2REv2, Lyra2REv3 and Lyra2Z, over arbitrary functions for the digests that are
not specified here. -/

namespace Spec.Chains

/-- Lyra2 of a digest with itself as salt, 32 bytes of output. -/
def lyra2Of (T R C : Nat) (x : List Byte) : List Byte := Lyra2.reference 32 x x T R C
/-- The Lyra2REv3 variant of Lyra2 of a digest with itself as salt: one pass, 4 rows, 4 columns. -/
def lyra2modOf (x : List Byte) : List Byte := Lyra2.rev3 32 x x 1 4 4

/-- Lyra2RE. -/
def lyra2re (blake keccak skein groestl : List Byte → List Byte) (x : List Byte) : List Byte :=
  groestl (skein (lyra2Of 1 8 8 (keccak (blake x))))

/-- Lyra2REv2. -/
def lyra2rev2 (blake keccak skein : List Byte → List Byte) (x : List Byte) : List Byte :=
  Bmw.hash (CubeHash.hash (skein (lyra2Of 1 4 4 (CubeHash.hash (keccak (blake x))))))

/-- Lyra2REv3. -/
def lyra2rev3 (blake : List Byte → List Byte) (x : List Byte) : List Byte :=
  Bmw.hash (lyra2modOf (CubeHash.hash (lyra2modOf (blake x))))

/-- Lyra2Z. -/
def lyra2z (blake : List Byte → List Byte) (x : List Byte) : List Byte := lyra2Of 8 8 8 (blake x)

end Spec.Chains

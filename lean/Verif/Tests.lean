import Verif.Model.Chains
import Verif.Spec.Published

/-!
Sanity checks of the model and of the specifications against the test vectors of the repository and a few published ones.
These are evaluations of single inputs: they are evidence that the model is a faithful transcription and that the
specifications are the intended algorithms, not proofs of any property.
-/

namespace Tests
open Rust

/-- Hexadecimal form of a byte list. -/
def hex (b : List U8) : String :=
  String.join (b.map fun x => String.ofList [Nat.digitChar (x.toNat / 16), Nat.digitChar (x.toNat % 16)])

/-- Result of a computation as text. -/
def show_ (r : Res (List U8)) : String :=
  match r.run with
  | none => "diverges"
  | some (.error _) => "panics"
  | some (.ok x) => hex x

/-- UTF-8 bytes of a string. -/
def bytes (s : String) : List U8 := s.toUTF8.toList.map fun x => BitVec.ofNat 8 x.toNat

-- src/lyra2.rs, tests
#guard show_ (Model.Lyra2.sum .debug (bytes "abc")) = "8f63758bd178f014ea3fd4df09ff0a61646dc574a0b6bcf2890ec529a6a7360c"
#guard show_ (Model.Lyra2.sum .release (bytes "abc")) = "8f63758bd178f014ea3fd4df09ff0a61646dc574a0b6bcf2890ec529a6a7360c"
#guard show_ (Model.Lyra2.lyra2 .debug 48 (bytes "脇山珠美ちゃんかわいい！") (bytes "脇山珠美ちゃんかわいい！") 1 3 4) =
  "c937cfe0ee21a8e7c1d1871245ea717457edbee2de8bf544e50f807349a3460c52cb6bb10bd0b7328504bc2ad984e1f3"
#guard show_ (Model.Lyra2.lyra2 .debug 16 (bytes "😀😁😂") (bytes "😀😁😂") 1 4 2) = "372557ef600c8c76bedd91ecd5a01f45"

-- src/lyra2mod/mod.rs, tests
#guard show_ (Model.Lyra2mod.sum .debug (bytes "abc")) = "0c36444f2885b72f3528af3b1f59174f8fd5c20b712988306962784c5f8ac462"
#guard show_ (Model.Lyra2mod.lyra2mod .debug 48 (bytes "脇山珠美ちゃんかわいい！") (bytes "脇山珠美ちゃんかわいい！") 1 3 4) =
  "c937cfe0ee21a8e7c1d1871245ea717457edbee2de8bf544e50f807349a3460c52cb6bb10bd0b7328504bc2ad984e1f3"
#guard show_ (Model.Lyra2mod.lyra2mod .debug 16 (bytes "😀😁😂") (bytes "😀😁😂") 1 4 2) = "3cd143a8903f35aa32fbe9395706cfd6"

-- src/cubehash/mod.rs, tests
#guard show_ (Model.CubeHash.sum (bytes "00000000000000000000000000000000")) =
  "f83989901eb3c366e7d7469f8ea8ef0694043cd42deb6252089ff38fb7892f3d"

-- src/bmw/mod.rs, tests
#guard show_ (Model.Bmw.sum (bytes "abc")) = "57d11fc94bdf98e6a0d0bf1d4ddda3f4205e873666a644b5bb585e171ad87d34"
#guard show_ (Model.Bmw.sum (bytes "脇山珠美ちゃんかわいい！")) =
  "034c3defeb35b38e23136ad700885007c0c051cd51cc45170cbbdcd68419214a"
#guard show_ (Model.Bmw.sum (bytes "😀😁😂")) = "9978ccbde1db31dcc1bfd7a010d9ae2215e5fb91e9ecaf786be6252c621f60e3"

/-- The published digests in the place of the external crates. -/
def digests : Model.Chains.Digests :=
  ⟨Spec.Blake256.hash, Spec.Keccak256.hash, Spec.Skein512.hash, Spec.Groestl256.hash⟩

-- specifications: the test vectors of the repository
#guard hex (Spec.Bmw.hash (bytes "abc")) = "57d11fc94bdf98e6a0d0bf1d4ddda3f4205e873666a644b5bb585e171ad87d34"
#guard hex (Spec.Bmw.hash (bytes "脇山珠美ちゃんかわいい！")) = "034c3defeb35b38e23136ad700885007c0c051cd51cc45170cbbdcd68419214a"
#guard hex (Spec.Bmw.hash (bytes "😀😁😂")) = "9978ccbde1db31dcc1bfd7a010d9ae2215e5fb91e9ecaf786be6252c621f60e3"
#guard hex (Spec.CubeHash.hash (bytes "00000000000000000000000000000000")) =
  "f83989901eb3c366e7d7469f8ea8ef0694043cd42deb6252089ff38fb7892f3d"
#guard hex (Spec.Lyra2.masked 32 (bytes "abc") (bytes "abc") 1 4 4) = "8f63758bd178f014ea3fd4df09ff0a61646dc574a0b6bcf2890ec529a6a7360c"
#guard hex (Spec.Lyra2.masked 48 (bytes "脇山珠美ちゃんかわいい！") (bytes "脇山珠美ちゃんかわいい！") 1 3 4) =
  "c937cfe0ee21a8e7c1d1871245ea717457edbee2de8bf544e50f807349a3460c52cb6bb10bd0b7328504bc2ad984e1f3"
#guard hex (Spec.Lyra2.masked 16 (bytes "😀😁😂") (bytes "😀😁😂") 1 4 2) = "372557ef600c8c76bedd91ecd5a01f45"
#guard hex (Spec.Lyra2.rev3Masked 32 (bytes "abc") (bytes "abc") 1 4 4) = "0c36444f2885b72f3528af3b1f59174f8fd5c20b712988306962784c5f8ac462"
#guard hex (Spec.Lyra2.rev3Masked 16 (bytes "😀😁😂") (bytes "😀😁😂") 1 4 2) = "3cd143a8903f35aa32fbe9395706cfd6"

-- published digests of the empty string (quoted from memory, there is no network here)
#guard hex (Spec.Blake256.hash []) = "716f6e863f744b9ac22c97ec7b76ea5f5908bc5b2f67c61510bfc4751384ea7a"
#guard hex (Spec.Keccak256.hash []) = "c5d2460186f7233c927e7db2dcc703c0e500b653ca82273b7bfad8045d85a470"
#guard hex (Spec.Skein512.hash []) = "39ccc4554a8b31853b9de7a1fe638a24cce6b35a55f2431009e18780335d2621"
#guard hex (Spec.Groestl256.hash []) = "1a52d11d550039be16107f9c58db9ebcc417f16f736adb2502567119f0083467"

-- src/lyra2re.rs, tests: model and specification
#guard show_ (Model.Chains.Lyra2re.sum .debug digests (bytes "abc")) =
  "07d3fe93103f6ad4284ad389d4b0a80334c94f5ffd0a537dfc935b3625552317"
#guard hex (Spec.Published.lyra2re (bytes "abc")) =
  "07d3fe93103f6ad4284ad389d4b0a80334c94f5ffd0a537dfc935b3625552317"
#guard show_ (Model.Chains.Lyra2re.sum .debug digests (bytes "脇山珠美ちゃんかわいい！")) =
  "8361fd2586e630cf7bc8209fb05d8d24fb549cee19b1c085c2cec79c61c6cc6e"
#guard hex (Spec.Published.lyra2re (bytes "脇山珠美ちゃんかわいい！")) =
  "8361fd2586e630cf7bc8209fb05d8d24fb549cee19b1c085c2cec79c61c6cc6e"
#guard show_ (Model.Chains.Lyra2re.sum .debug digests (bytes "😀😁😂")) =
  "c3afc6db9914ab54f95ddd3daeee4f43f960d431a845de7dcae18544b14e8b8b"
#guard hex (Spec.Published.lyra2re (bytes "😀😁😂")) =
  "c3afc6db9914ab54f95ddd3daeee4f43f960d431a845de7dcae18544b14e8b8b"

-- src/lyra2rev2.rs, tests: model and specification
#guard show_ (Model.Chains.Lyra2rev2.sum .debug digests (bytes "abc")) =
  "80ec5344227c5d0bfd63038f00c3fe5aecddd1a1122043b0a90b5fd67b1e8f32"
#guard hex (Spec.Published.lyra2rev2 (bytes "abc")) =
  "80ec5344227c5d0bfd63038f00c3fe5aecddd1a1122043b0a90b5fd67b1e8f32"
#guard show_ (Model.Chains.Lyra2rev2.sum .debug digests (bytes "脇山珠美ちゃんかわいい！")) =
  "bdaaa569c4f4918da66b02f2d0a2093a51e3d1735ee6023e9a93185c7bff40bc"
#guard hex (Spec.Published.lyra2rev2 (bytes "脇山珠美ちゃんかわいい！")) =
  "bdaaa569c4f4918da66b02f2d0a2093a51e3d1735ee6023e9a93185c7bff40bc"
#guard show_ (Model.Chains.Lyra2rev2.sum .debug digests (bytes "😀😁😂")) =
  "f88283ab841272a7c3803a380af32a0805448e9ea2e7c3809c4342afeeb040f1"
#guard hex (Spec.Published.lyra2rev2 (bytes "😀😁😂")) =
  "f88283ab841272a7c3803a380af32a0805448e9ea2e7c3809c4342afeeb040f1"

-- src/lyra2rev3.rs, tests: model and specification
#guard show_ (Model.Chains.Lyra2rev3.sum .debug digests (bytes "abc")) =
  "4e445087e28d294b3074e98fee860fb73d248a63150ea2d42bfeddd21c0b89ef"
#guard hex (Spec.Published.lyra2rev3 (bytes "abc")) =
  "4e445087e28d294b3074e98fee860fb73d248a63150ea2d42bfeddd21c0b89ef"
#guard show_ (Model.Chains.Lyra2rev3.sum .debug digests (bytes "脇山珠美ちゃんかわいい！")) =
  "322b5d87289dca02e50c882314ee6a43efd91579ca4717ff49715f4bb039fd78"
#guard hex (Spec.Published.lyra2rev3 (bytes "脇山珠美ちゃんかわいい！")) =
  "322b5d87289dca02e50c882314ee6a43efd91579ca4717ff49715f4bb039fd78"
#guard show_ (Model.Chains.Lyra2rev3.sum .debug digests (bytes "😀😁😂")) =
  "22cb37cae128d61e3060bf45189ba9b206755728596fc8b054c5712b68c12bcb"
#guard hex (Spec.Published.lyra2rev3 (bytes "😀😁😂")) =
  "22cb37cae128d61e3060bf45189ba9b206755728596fc8b054c5712b68c12bcb"

-- src/lyra2z.rs, tests: model and specification
#guard show_ (Model.Chains.Lyra2z.sum .debug digests (bytes "abc")) =
  "cf9d13829886efd875cb0d01e44a80288d478346dd721fac0e6e04fe5774879c"
#guard hex (Spec.Published.lyra2z (bytes "abc")) =
  "cf9d13829886efd875cb0d01e44a80288d478346dd721fac0e6e04fe5774879c"
#guard show_ (Model.Chains.Lyra2z.sum .debug digests (bytes "脇山珠美ちゃんかわいい！")) =
  "576aa33e47af09af117373008cfd98b452d605e1eab6f6fe173235a3b454e059"
#guard hex (Spec.Published.lyra2z (bytes "脇山珠美ちゃんかわいい！")) =
  "576aa33e47af09af117373008cfd98b452d605e1eab6f6fe173235a3b454e059"
#guard show_ (Model.Chains.Lyra2z.sum .debug digests (bytes "😀😁😂")) =
  "a226bea4d989b5eaf482c493921aff2608729d4cd9a1d6dda668b45b2fe02c8e"
#guard hex (Spec.Published.lyra2z (bytes "😀😁😂")) =
  "a226bea4d989b5eaf482c493921aff2608729d4cd9a1d6dda668b45b2fe02c8e"

-- behaviour outside the documented domain (see DESIGN.md, findings)
#guard show_ (Model.Lyra2.lyra2 .release 16 (bytes "😀😁😂") (bytes "😀😁😂") 1 (BitVec.ofNat 64 (2 ^ 63 + 4)) 1) ≠ "panics"
#guard show_ (Model.Lyra2.lyra2 .debug 16 (bytes "😀😁😂") (bytes "😀😁😂") 1 (BitVec.ofNat 64 (2 ^ 63 + 4)) 1) = "panics"
#guard show_ (Model.Lyra2.lyra2 .debug 97 (bytes "abc") (bytes "abc") 1 4 4) = "panics"
#guard show_ (Model.Bmw.sum (List.replicate 64 0)) = "panics"
#guard show_ (Model.CubeHash.sum (List.replicate 31 0)) = "panics"

/-- The 80 bytes of a block header in the last example of README.md, as a number. -/
def header : Nat :=
  0x700000005d385ba114d079971b29a9418fd0549e7d68a95c7f168621a314201000000000578586d149fd07b22f3a8a347c516de7052f034d2b76ff68e0d6ecff9b77a45489e3fd511732011df0731000

-- README.md, last example: model and specification
#guard show_ (Model.Chains.Lyra2rev3.sum .debug digests ((List.range 80).map fun i => BitVec.ofNat 8 (header >>> (8 * (79 - i))))) =
  "5d7b298258e78881c7831ba1e46751b089efdf1fdb9eb01edd03b8d7ed39eafb"
#guard hex (Spec.Published.lyra2rev3 ((List.range 80).map fun i => BitVec.ofNat 8 (header >>> (8 * (79 - i))))) =
  "5d7b298258e78881c7831ba1e46751b089efdf1fdb9eb01edd03b8d7ed39eafb"

end Tests

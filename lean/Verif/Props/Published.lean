import Verif.Props.Chains
import Verif.Spec.Published

/-! Property C41: the chains with the digests that the external crates are documented to compute. -/

namespace Props
open Rust Rust.Res Spec
open Model.Chains (Digests)

/-- The published digests in the place of the external crates. -/
def published : Digests := ⟨Blake256.hash, Keccak256.hash, Skein512.hash, Groestl256.hash⟩

theorem leBytes_len (k n : Nat) : (leBytes k n).length = k := by
  induction k generalizing n with
  | zero => rfl
  | succ k ih => rw [leBytes, List.length_cons, ih]

theorem beBytes_len (k n : Nat) : (Blake256.beBytes k n).length = k := by
  rw [Blake256.beBytes, List.length_reverse, leBytes_len]

theorem flatMap_len {α : Type} (f : α → List Byte) (k : Nat) (h : ∀ a, (f a).length = k) (l : List α) :
    (l.flatMap f).length = l.length * k := by
  induction l with
  | nil => simp
  | cons a l ih => rw [List.flatMap_cons, List.length_append, ih, h, List.length_cons]; rw [Nat.add_mul]; omega

theorem blake256_len (x : List Byte) : (Blake256.hash x).length = 32 := by
  unfold Blake256.hash
  dsimp only
  rw [flatMap_len _ 4 (fun w => beBytes_len 4 _), Vector.length_toList]

theorem keccak256_len (x : List Byte) : (Keccak256.hash x).length = 32 := by
  unfold Keccak256.hash
  dsimp only
  rw [flatMap_len _ 8 (fun w => leBytes_len 8 _), List.length_take, Vector.length_toList]
  decide

theorem skein512_len (x : List Byte) : (Skein512.hash x).length = 32 := by
  unfold Skein512.hash
  dsimp only
  rw [flatMap_len _ 8 (fun w => leBytes_len 8 _), List.length_take, Vector.length_toList]
  decide

theorem drop32_len (v : Vector Byte 64) : (v.toList.drop 32).length = 32 := by
  rw [List.length_drop, Vector.length_toList]

theorem groestl256_len (x : List Byte) : (Groestl256.hash x).length = 32 := by
  unfold Groestl256.hash
  exact drop32_len _

theorem mk_bytes32 {a b c d : List Byte → List Byte} (ha : ∀ x, (a x).length = 32) (hb : ∀ x, (b x).length = 32)
    (hc : ∀ x, (c x).length = 32) (hd : ∀ x, (d x).length = 32) : Bytes32 ⟨a, b, c, d⟩ := ⟨ha, hb, hc, hd⟩

/-- **C41** The published digests return 32 bytes on every input, so the hypothesis of the theorems about chains holds. -/
theorem C41_bytes32 : Bytes32 published := mk_bytes32 blake256_len keccak256_len skein512_len groestl256_len

theorem chains_mk (p : Profile) {a b c d : List Byte → List Byte} (h : Bytes32 ⟨a, b, c, d⟩) (input : List U8) :
    (Model.Chains.Lyra2re.sum p ⟨a, b, c, d⟩ input).Returns (Spec.Chains.lyra2re a b c d input) ∧
      (Model.Chains.Lyra2rev2.sum p ⟨a, b, c, d⟩ input).Returns (Spec.Chains.lyra2rev2 a b c input) ∧
      (Model.Chains.Lyra2rev3.sum p ⟨a, b, c, d⟩ input).Returns (Spec.Chains.lyra2rev3 a input) ∧
      (Model.Chains.Lyra2z.sum p ⟨a, b, c, d⟩ input).Returns (Spec.Chains.lyra2z a input) :=
  ⟨C38_lyra2re p _ h input, C38_lyra2rev2 p _ h input, C38_lyra2rev3 p _ h input, C38_lyra2z p _ h input⟩

/-- **C41** With the published digests the four chains are the published chains on every input. -/
theorem C41_published (p : Profile) (input : List U8) :
    (Model.Chains.Lyra2re.sum p published input).Returns (Published.lyra2re input) ∧
      (Model.Chains.Lyra2rev2.sum p published input).Returns (Published.lyra2rev2 input) ∧
      (Model.Chains.Lyra2rev3.sum p published input).Returns (Published.lyra2rev3 input) ∧
      (Model.Chains.Lyra2z.sum p published input).Returns (Published.lyra2z input) := by
  unfold Published.lyra2re Published.lyra2rev2 Published.lyra2rev3 Published.lyra2z published
  exact chains_mk p C41_bytes32 input

end Props

import Verif.Spec.Bytes

/-!
Keccak-256 (Bertoni, Daemen, Peeters, Van Assche: "The Keccak reference", the SHA-3 submission with its own padding, not the
later SHA3-256). The crate takes it from `sha3`; it is specified here only to instantiate the hash chains.
-/

namespace Spec.Keccak256

/-- A lane. -/
abbrev W := BitVec 64
/-- The state: lane `(x, y)` is word `x + 5 y`. -/
abbrev State := Vector W 25

/-- Lane `(x, y)`. -/
def lane (x y : Nat) : Fin 25 := ⟨(x % 5) + 5 * (y % 5), by omega⟩

/-- `θ`. -/
def theta (a : State) : State :=
  let C : Vector W 5 := Vector.ofFn fun x => a[lane x 0] ^^^ a[lane x 1] ^^^ a[lane x 2] ^^^ a[lane x 3] ^^^ a[lane x 4]
  Vector.ofFn fun i => a[i] ^^^ C[(i.val + 4) % 5]'(Nat.mod_lt _ (by decide)) ^^^ (C[(i.val + 1) % 5]'(Nat.mod_lt _ (by decide))).rotateLeft 1

/-- Rotation offsets of `ρ`, by word number. -/
def offsets : Vector Nat 25 := #v[0, 1, 62, 28, 27, 36, 44, 6, 55, 20, 3, 10, 43, 25, 39, 41, 45, 15, 21, 8, 18, 2, 61, 56, 14]

/-- `π ∘ ρ`: lane `(x, y)` moves to `(y, 2x + 3y)`. -/
def rhoPi (a : State) : State :=
  (List.finRange 25).foldl (fun b i => b.set (lane (i.val / 5) (2 * (i.val % 5) + 3 * (i.val / 5))) (a[i].rotateLeft offsets[i])) a

/-- `χ`. -/
def chi (a : State) : State :=
  Vector.ofFn fun i => a[i] ^^^ (~~~ a[lane (i.val % 5 + 1) (i.val / 5)] &&& a[lane (i.val % 5 + 2) (i.val / 5)])

/-- Round constants. -/
def RC : Vector W 24 := #v[
  0x0000000000000001, 0x0000000000008082, 0x800000000000808A, 0x8000000080008000, 0x000000000000808B, 0x0000000080000001,
  0x8000000080008081, 0x8000000000008009, 0x000000000000008A, 0x0000000000000088, 0x0000000080008009, 0x000000008000000A,
  0x000000008000808B, 0x800000000000008B, 0x8000000000008089, 0x8000000000008003, 0x8000000000008002, 0x8000000000000080,
  0x000000000000800A, 0x800000008000000A, 0x8000000080008081, 0x8000000000008080, 0x0000000080000001, 0x8000000080008008]

/-- `Keccak-f[1600]`. -/
def keccakF (a : State) : State :=
  (List.finRange 24).foldl (fun a r =>
    let a := chi (rhoPi (theta a))
    a.set 0 (a[0] ^^^ RC[r])) a

/-- Padding `10*1` to a multiple of 136 bytes. -/
def pad (msg : List Byte) : List Byte :=
  let z := 136 - msg.length % 136
  msg ++ (if z = 1 then [0x81] else [0x01] ++ List.replicate (z - 2) 0 ++ [0x80])

/-- Absorbs a block of 17 words. -/
def absorb (a : State) (b : List Byte) : State :=
  keccakF (Vector.ofFn fun i => if i.val < 17 then a[i] ^^^ BitVec.ofNat 64 (leNat ((b.drop (8 * i.val)).take 8)) else a[i])

/-- Keccak-256. -/
def hash (msg : List Byte) : List Byte :=
  let a := (chunks 136 (pad msg)).foldl absorb (Vector.replicate 25 0)
  (a.toList.take 4).flatMap fun w => leBytes 8 w.toNat

end Spec.Keccak256

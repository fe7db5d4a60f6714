import Verif.Spec.Bytes

/-!
CubeHash (D. J. Bernstein, "CubeHash specification (2.B.1)"), parameters 16 rounds per block, 32-byte blocks, 256-bit
output: CubeHash160+16/32+160-256. The state is 32 words `x[0], ..., x[31]`; word numbers are read as five bits `ijklm`
(`i` has weight 16), and flipping bit `2^b` of a word number `n` is `n ^^^ 2^b`.
-/

namespace Spec.CubeHash

/-- A 32-bit word. -/
abbrev W := BitVec 32
/-- The state. -/
abbrev State := Vector W 32

/-- Is bit `b` of the word number `n` set? -/
def bit (n : Fin 32) (b : Nat) : Bool := n.val.testBit b
/-- The word number that differs from `n` in bit `b` only. -/
def flip (n : Fin 32) (b : Fin 5) : Fin 32 := ⟨(n.val ^^^ 2 ^ b.val) % 32, Nat.mod_lt _ (by decide)⟩

/-- Add `x[0jklm]` into `x[1jklm]`. -/
def addHalf (x : State) : State := Vector.ofFn fun n => if bit n 4 then x[flip n 4] + x[n] else x[n]
/-- Rotate `x[0jklm]` upwards by `r` bits. -/
def rotHalf (r : Nat) (x : State) : State := Vector.ofFn fun n => if bit n 4 then x[n] else x[n].rotateLeft r
/-- Xor `x[1jklm]` into `x[0jklm]`. -/
def xorHalf (x : State) : State := Vector.ofFn fun n => if bit n 4 then x[n] else x[n] ^^^ x[flip n 4]
/-- Swap the words `x[i....]` that differ in bit `b` only, where `i` is the given value of the top bit. -/
def swapBit (i : Bool) (b : Fin 5) (x : State) : State :=
  Vector.ofFn fun n => if bit n 4 = i then x[flip n b] else x[n]

/-- One round: the ten steps of the specification. -/
def round (x : State) : State :=
  let x := addHalf x
  let x := rotHalf 7 x
  let x := swapBit false 3 x
  let x := xorHalf x
  let x := swapBit true 1 x
  let x := addHalf x
  let x := rotHalf 11 x
  let x := swapBit false 2 x
  let x := xorHalf x
  let x := swapBit true 0 x
  x

/-- `n` rounds. -/
def rounds : Nat → State → State
  | 0, x => x
  | n + 1, x => rounds n (round x)

/-- Initial state: output bytes, block bytes, rounds per block, zeros; then ten times 16 rounds. -/
def init : State :=
  rounds 160 (Vector.ofFn fun n => if n = 0 then 32 else if n = 1 then 32 else if n = 2 then 16 else 0)

/-- Xors a 32-byte block into the first eight words, little-endian. -/
def xorBlock (x : State) (b : List Byte) : State := Vector.ofFn fun n =>
  if n.val < 8 then x[n] ^^^ BitVec.ofNat 32 (leNat ((b.drop (4 * n.val)).take 4)) else x[n]

/-- Padding: a 1 bit, then zeros up to a multiple of 32 bytes. -/
def pad (msg : List Byte) : List Byte := msg ++ [0x80] ++ List.replicate (31 - msg.length % 32) 0

/-- State after the whole padded message and the finalisation. -/
def finalState (msg : List Byte) : State :=
  let x := (chunks 32 (pad msg)).foldl (fun x b => rounds 16 (xorBlock x b)) init
  rounds 160 (x.set 31 (x[31] ^^^ 1))

/-- CubeHash16/32-256. -/
def hash (msg : List Byte) : List Byte :=
  ((finalState msg).toList.take 8).flatMap fun w => leBytes 4 w.toNat

end Spec.CubeHash

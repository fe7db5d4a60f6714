/-! Little-endian numbers, as arithmetic on natural numbers. -/

namespace Spec

/-- A byte. -/
abbrev Byte := BitVec 8

/-- Value of a byte string read as a little-endian number. -/
def leNat : List Byte → Nat
  | [] => 0
  | b :: bs => b.toNat + 256 * leNat bs

/-- The `k` least significant bytes of `n`, least significant first. -/
def leBytes : Nat → Nat → List Byte
  | 0, _ => []
  | k + 1, n => BitVec.ofNat 8 n :: leBytes k (n / 256)

/-- The complete `n`-byte pieces of a byte string, in order; an incomplete last piece is dropped. -/
def chunks (n : Nat) (bs : List Byte) : List (List Byte) :=
  (List.range (bs.length / n)).map fun i => (bs.drop (n * i)).take n

/-- The complete 8-byte pieces of a byte string as little-endian 64-bit words. -/
def words64 (bs : List Byte) : List (BitVec 64) :=
  (chunks 8 bs).map fun c => BitVec.ofNat 64 (leNat c)

end Spec

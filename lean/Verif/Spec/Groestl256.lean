import Verif.Spec.Bytes
import Verif.Spec.Blake256

/-!
Grøstl-256 (Gauravaram, Knudsen, Matusiewicz, Mendel, Rechberger, Schläffer, Thomsen: "Grøstl - a SHA-3 candidate", final-round
version). The crate takes it from `groestl`; it is specified here only to instantiate the hash chains.
-/

namespace Spec.Groestl256

/-- The state: 8 columns of 8 bytes, byte `8 c + r` in row `r` and column `c`. -/
abbrev State := Vector Byte 64

/-- Multiplication by `x` modulo `x^8 + x^4 + x^3 + x + 1`. -/
def xtime (a : Byte) : Byte := (a <<< 1) ^^^ (if a.msb then 0x1b else 0)

/-- Product in the field of 256 elements. -/
def mul (a b : Byte) : Byte :=
  ((List.range 8).foldl (fun (p : Byte × Byte) i => (p.1 ^^^ (if b.getLsbD i then p.2 else 0), xtime p.2)) (0, a)).1

/-- The inverse, `a^254`, with 0 for 0. -/
def inv (a : Byte) : Byte :=
  let a2 := mul a a
  let a4 := mul a2 a2
  let a8 := mul a4 a4
  let a16 := mul a8 a8
  let a32 := mul a16 a16
  let a64 := mul a32 a32
  let a128 := mul a64 a64
  mul a2 (mul a4 (mul a8 (mul a16 (mul a32 (mul a64 a128)))))

/-- The AES S-box. -/
def sbox (a : Byte) : Byte :=
  let b := inv a
  b ^^^ b.rotateLeft 1 ^^^ b.rotateLeft 2 ^^^ b.rotateLeft 3 ^^^ b.rotateLeft 4 ^^^ 0x63

/-- The two permutations. -/
inductive Perm | P | Q

/-- AddRoundConstant of round `r`. -/
def addConst (π : Perm) (r : Nat) (a : State) : State := Vector.ofFn fun i =>
  let k : Byte := BitVec.ofNat 8 (16 * (i.val / 8)) ^^^ BitVec.ofNat 8 r
  match π with
  | .P => if i.val % 8 = 0 then a[i] ^^^ k else a[i]
  | .Q => if i.val % 8 = 7 then a[i] ^^^ 0xff ^^^ k else a[i] ^^^ 0xff

/-- Left rotation of the rows by ShiftBytes. -/
def shifts (π : Perm) : Vector Nat 8 := match π with
  | .P => #v[0, 1, 2, 3, 4, 5, 6, 7]
  | .Q => #v[1, 3, 5, 7, 0, 2, 4, 6]

/-- ShiftBytes. -/
def shiftBytes (π : Perm) (a : State) : State := Vector.ofFn fun i =>
  a[8 * ((i.val / 8 + (shifts π)[i.val % 8]) % 8) + i.val % 8]'(by omega)

/-- First row of the circulant matrix of MixBytes. -/
def circ : Vector Byte 8 := #v[2, 2, 3, 4, 5, 3, 5, 7]

/-- MixBytes. -/
def mixBytes (a : State) : State := Vector.ofFn fun i =>
  (List.finRange 8).foldl (fun acc j => acc ^^^ mul (circ[(j.val + 8 - i.val % 8) % 8]'(Nat.mod_lt _ (by decide))) (a[8 * (i.val / 8) + j.val]'(by omega))) 0

/-- The permutations, ten rounds. -/
def perm (π : Perm) (a : State) : State :=
  (List.range 10).foldl (fun a r => mixBytes (shiftBytes π ((addConst π r a).map sbox))) a

/-- Byte-wise exclusive or. -/
def bxor (a b : State) : State := Vector.ofFn fun i => a[i] ^^^ b[i]

/-- The compression function. -/
def compress (h m : State) : State := bxor (bxor (perm .P (bxor h m)) (perm .Q m)) h

/-- Initial value: the output size in bits, big-endian, in the last bytes. -/
def iv : State := Vector.ofFn fun i => if i.val = 62 then 1 else 0

/-- Padding: a 1 bit, zeros, and the number of blocks as 64 bits, to a multiple of 64 bytes. -/
def pad (msg : List Byte) : List Byte :=
  let p := msg ++ [0x80] ++ List.replicate ((119 - msg.length % 64) % 64) 0
  p ++ Blake256.beBytes 8 (p.length / 64 + 1)

/-- Bytes of a block. -/
def block (b : List Byte) : State := Vector.ofFn fun i => b.getD i.val 0

/-- Grøstl-256. -/
def hash (msg : List Byte) : List Byte :=
  let h := (chunks 64 (pad msg)).foldl (fun h b => compress h (block b)) iv
  (bxor (perm .P h) h).toList.drop 32

end Spec.Groestl256

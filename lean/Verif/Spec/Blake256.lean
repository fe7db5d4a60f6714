import Verif.Spec.Bytes

/-!
BLAKE-256 (Aumasson, Henzen, Meier, Phan: "SHA-3 proposal BLAKE", final-round version with 14 rounds), salt zero. The crate
takes it from `blake-hash`; it is specified here only to instantiate the hash chains.
-/

namespace Spec.Blake256

/-- A 32-bit word. -/
abbrev W := BitVec 32

/-- Value of a byte string read as a big-endian number. -/
def beNat (bs : List Byte) : Nat := leNat bs.reverse
/-- The `k` least significant bytes of `n`, most significant first. -/
def beBytes (k n : Nat) : List Byte := (leBytes k n).reverse

/-- Initial chaining value. -/
def iv : Vector W 8 := #v[0x6A09E667, 0xBB67AE85, 0x3C6EF372, 0xA54FF53A, 0x510E527F, 0x9B05688C, 0x1F83D9AB, 0x5BE0CD19]

/-- The constants: leading digits of π. -/
def c : Vector W 16 := #v[0x243F6A88, 0x85A308D3, 0x13198A2E, 0x03707344, 0xA4093822, 0x299F31D0, 0x082EFA98, 0xEC4E6C89,
  0x452821E6, 0x38D01377, 0xBE5466CF, 0x34E90C6C, 0xC0AC29B7, 0xC97C50DD, 0x3F84D5B5, 0xB5470917]

/-- The permutations of the message words. -/
def σ : Vector (Vector (Fin 16) 16) 10 := #v[
  #v[0, 1, 2, 3, 4, 5, 6, 7, 8, 9, 10, 11, 12, 13, 14, 15],
  #v[14, 10, 4, 8, 9, 15, 13, 6, 1, 12, 0, 2, 11, 7, 5, 3],
  #v[11, 8, 12, 0, 5, 2, 15, 13, 10, 14, 3, 6, 7, 1, 9, 4],
  #v[7, 9, 3, 1, 13, 12, 11, 14, 2, 6, 5, 10, 4, 0, 15, 8],
  #v[9, 0, 5, 7, 2, 4, 10, 15, 14, 1, 11, 12, 6, 8, 3, 13],
  #v[2, 12, 6, 10, 0, 11, 8, 3, 4, 13, 7, 5, 15, 14, 1, 9],
  #v[12, 5, 1, 15, 14, 13, 4, 10, 0, 7, 6, 3, 9, 2, 8, 11],
  #v[13, 11, 7, 14, 12, 1, 3, 9, 5, 0, 15, 4, 8, 6, 2, 10],
  #v[6, 15, 14, 9, 11, 3, 0, 8, 12, 2, 13, 7, 1, 4, 10, 5],
  #v[10, 2, 8, 4, 7, 6, 1, 5, 15, 11, 9, 14, 3, 12, 13, 0]]

/-- `G_i` of round `r` on the words `a, b, d, e` (the words named a, b, c, d in the proposal). -/
def G (m : Vector W 16) (r : Nat) (i : Fin 8) (ia ib ic id : Fin 16) (v : Vector W 16) : Vector W 16 :=
  let s := σ[r % 10]'(Nat.mod_lt _ (by decide))
  let j : Fin 16 := s[2 * i.val]
  let k : Fin 16 := s[2 * i.val + 1]
  let a := v[ia] + v[ib] + (m[j] ^^^ c[k])
  let d := (v[id] ^^^ a).rotateRight 16
  let x := v[ic] + d
  let b := (v[ib] ^^^ x).rotateRight 12
  let a := a + b + (m[k] ^^^ c[j])
  let d := (d ^^^ a).rotateRight 8
  let x := x + d
  let b := (b ^^^ x).rotateRight 7
  (((v.set ia a).set ib b).set ic x).set id d

/-- One round: columns, then diagonals. -/
def round (m : Vector W 16) (r : Nat) (v : Vector W 16) : Vector W 16 :=
  let v := G m r 0 0 4 8 12 v
  let v := G m r 1 1 5 9 13 v
  let v := G m r 2 2 6 10 14 v
  let v := G m r 3 3 7 11 15 v
  let v := G m r 4 0 5 10 15 v
  let v := G m r 5 1 6 11 12 v
  let v := G m r 6 2 7 8 13 v
  G m r 7 3 4 9 14 v

/-- The compression function; `t` counts the message bits hashed so far, including this block. -/
def compress (h : Vector W 8) (m : Vector W 16) (t : Nat) : Vector W 8 :=
  let t0 : W := BitVec.ofNat 32 t
  let t1 : W := BitVec.ofNat 32 (t / 2 ^ 32)
  let v : Vector W 16 := #v[h[0], h[1], h[2], h[3], h[4], h[5], h[6], h[7], c[0], c[1], c[2], c[3], t0 ^^^ c[4], t0 ^^^ c[5],
    t1 ^^^ c[6], t1 ^^^ c[7]]
  let v := (List.range 14).foldl (fun v r => round m r v) v
  Vector.ofFn fun i => h[i] ^^^ v[i.val] ^^^ v[i.val + 8]

/-- Padding: a 1 bit, zeros, a 1 bit, the length in bits as 64 bits, to a multiple of 64 bytes. -/
def pad (msg : List Byte) : List Byte :=
  let z := (55 + 64 - msg.length % 64) % 64
  let tail : List Byte := if z = 0 then [0x81] else [0x80] ++ List.replicate (z - 1) 0 ++ [0x01]
  msg ++ tail ++ beBytes 8 (8 * msg.length)

/-- Words of a block, big-endian. -/
def words (b : List Byte) : Vector W 16 := Vector.ofFn fun i => BitVec.ofNat 32 (beNat ((b.drop (4 * i.val)).take 4))

/-- Number of message bits up to and including block `i`, and 0 for a block without message bits. -/
def counter (len i : Nat) : Nat := if 64 * i < len then 8 * min len (64 * (i + 1)) else 0

/-- BLAKE-256. -/
def hash (msg : List Byte) : List Byte :=
  let h := ((chunks 64 (pad msg)).zipIdx).foldl (fun h (b, i) => compress h (words b) (counter msg.length i)) iv
  h.toList.flatMap fun w => beBytes 4 w.toNat

end Spec.Blake256

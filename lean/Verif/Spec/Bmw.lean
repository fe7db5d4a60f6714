import Verif.Spec.Bytes

/-!
Blue Midnight Wish 256 (Gligoroski, Klima, Knapskog, El-Hadedy, Amundsen, Mjølsnes: "Cryptographic hash function Blue
Midnight Wish", second-round version), in table form.
-/

namespace Spec.Bmw

/-- A 32-bit word. -/
abbrev W := BitVec 32
/-- Sixteen words: a message block or a chaining value. -/
abbrev Words := Vector W 16

/-- `s_0, ..., s_5`: two shifts and two rotations (amounts), `s_4` and `s_5` are a shift and the identity. -/
def s (i : Nat) (x : W) : W :=
  match i with
  | 0 => (x >>> 1) ^^^ (x <<< 3) ^^^ x.rotateLeft 4 ^^^ x.rotateLeft 19
  | 1 => (x >>> 1) ^^^ (x <<< 2) ^^^ x.rotateLeft 8 ^^^ x.rotateLeft 23
  | 2 => (x >>> 2) ^^^ (x <<< 1) ^^^ x.rotateLeft 12 ^^^ x.rotateLeft 25
  | 3 => (x >>> 2) ^^^ (x <<< 2) ^^^ x.rotateLeft 15 ^^^ x.rotateLeft 29
  | 4 => (x >>> 1) ^^^ x
  | _ => (x >>> 2) ^^^ x

/-- `r_1, ..., r_7`: rotations. -/
def r (i : Nat) (x : W) : W :=
  x.rotateLeft (match i with | 1 => 3 | 2 => 7 | 3 => 13 | 4 => 16 | 5 => 19 | 6 => 23 | _ => 27)

/-- Table of the bijective mixing `W = A_1 (M ⊕ H)`: row `i` lists the five words that enter `W_i` and whether each is
added (`true`) or subtracted (`false`). -/
def mixTable : Vector (List (Fin 16 × Bool)) 16 := #v[
  [(5, true), (7, false), (10, true), (13, true), (14, true)],
  [(6, true), (8, false), (11, true), (14, true), (15, false)],
  [(0, true), (7, true), (9, true), (12, false), (15, true)],
  [(0, true), (1, false), (8, true), (10, false), (13, true)],
  [(1, true), (2, true), (9, true), (11, false), (14, false)],
  [(3, true), (2, false), (10, true), (12, false), (15, true)],
  [(4, true), (0, false), (3, false), (11, false), (13, true)],
  [(1, true), (4, false), (5, false), (12, false), (14, false)],
  [(2, true), (5, false), (6, false), (13, true), (15, false)],
  [(0, true), (3, false), (6, true), (7, false), (14, true)],
  [(8, true), (1, false), (4, false), (7, false), (15, true)],
  [(8, true), (0, false), (2, false), (5, false), (9, true)],
  [(1, true), (3, true), (6, false), (9, false), (10, true)],
  [(2, true), (4, true), (7, true), (10, true), (11, true)],
  [(3, true), (5, false), (8, true), (11, false), (12, false)],
  [(12, true), (4, false), (6, false), (9, false), (13, true)]]

/-- A signed sum of words. -/
def signedSum (t : List (Fin 16 × Bool)) (x : Words) : W :=
  t.foldl (fun acc e => if e.2 then acc + x[e.1] else acc - x[e.1]) 0

/-- `W_i`. -/
def mix (M H : Words) (i : Fin 16) : W := signedSum mixTable[i] (Vector.ofFn fun j => M[j] ^^^ H[j])

/-- `f_0`: the first half of the quadrupled pipe. -/
def f0 (M H : Words) (i : Fin 16) : W := s (i.val % 5) (mix M H i) + H[i + 1]

/-- `K_j = j * 0x05555555`. -/
def K (j : Nat) : W := BitVec.ofNat 32 (j * 0x05555555)

/-- Message word number `j mod 16`, rotated left by `(j mod 16) + 1`. -/
def rotM (M : Words) (j : Nat) : W :=
  (M[j % 16]'(Nat.mod_lt _ (by decide))).rotateLeft (j % 16 + 1)

/-- `AddElement(j)`, for `Q_(j+16)`. -/
def addElement (M H : Words) (j : Nat) : W :=
  (rotM M j + rotM M (j + 3) - rotM M (j + 10) + K (j + 16)) ^^^ H[(j + 7) % 16]'(Nat.mod_lt _ (by decide))

/-- `expand_1(j)`, from the 16 preceding words `Q (j-16), ..., Q (j-1)`. -/
def expand1 (M H : Words) (Q : Nat → W) (j : Nat) : W :=
  (List.range 16).foldl (fun acc i => acc + s ((i + 1) % 4) (Q (j - 16 + i))) 0 + addElement M H (j - 16)

/-- `expand_2(j)`: `Q(j-16) + r_1(Q(j-15)) + Q(j-14) + ... + r_7(Q(j-3)) + s_4(Q(j-2)) + s_5(Q(j-1)) + AddElement`. -/
def expand2 (M H : Words) (Q : Nat → W) (j : Nat) : W :=
  (List.range 14).foldl (fun acc i =>
      acc + (if i % 2 = 0 then Q (j - 16 + i) else r (i / 2 + 1) (Q (j - 16 + i)))) 0
    + s 4 (Q (j - 2)) + s 5 (Q (j - 1)) + addElement M H (j - 16)

/-- `f_1`: word number `j` of the quadrupled pipe (`j < 32`); two words by `expand_1`, the rest by `expand_2`. -/
def f1 (M H : Words) (Q : Nat → W) (j : Nat) : W :=
  if j < 18 then expand1 M H Q j else expand2 M H Q j

/-- The words `Q_0, ..., Q_(n-1)` of the quadrupled pipe. -/
def pipe (M H : Words) : Nat → List W
  | 0 => []
  | n + 1 =>
    let q := pipe M H n
    q ++ [if h : n < 16 then f0 M H ⟨n, h⟩ else f1 M H (fun i => q.getD i 0) n]

/-- `f_2`: folds the quadrupled pipe into the new chaining value. -/
def f2 (M : Words) (Q : Nat → W) : Words :=
  let XL := Q 16 ^^^ Q 17 ^^^ Q 18 ^^^ Q 19 ^^^ Q 20 ^^^ Q 21 ^^^ Q 22 ^^^ Q 23
  let XH := XL ^^^ Q 24 ^^^ Q 25 ^^^ Q 26 ^^^ Q 27 ^^^ Q 28 ^^^ Q 29 ^^^ Q 30 ^^^ Q 31
  -- shifts of `XH` and `Q_(16+i)` in the first eight words: positive to the left, negative to the right
  let sh (x : W) (a : Int) : W := if a < 0 then x >>> a.natAbs else x <<< a.natAbs
  let xhShift : Fin 8 → Int := fun i => [5, -7, -5, -1, -3, 6, -4, -11].getD i.val 0
  let qShift : Fin 8 → Int := fun i => [-5, 8, 5, 5, 0, -6, 6, 2].getD i.val 0
  let low : Vector W 8 := Vector.ofFn fun i =>
    (sh XH (xhShift i) ^^^ sh (Q (16 + i)) (qShift i) ^^^ M[i.val]) + (XL ^^^ Q (24 + i) ^^^ Q i)
  -- the last eight words use the first eight, rotated, four places on
  let xlShift : Fin 8 → Int := fun i => [8, -6, 6, 4, -3, -4, -7, -2].getD i.val 0
  let high : Fin 8 → W := fun i =>
    low[i + 4].rotateLeft (9 + i) + (XH ^^^ Q (24 + i) ^^^ M[8 + i.val])
      + (sh XL (xlShift i) ^^^ Q (if i.val = 0 then 23 else 15 + i) ^^^ Q (8 + i))
  Vector.ofFn fun n => if h : n.val < 8 then low[n.val] else high ⟨n.val - 8, by omega⟩

/-- The compression function. -/
def compress (H M : Words) : Words :=
  let q := (pipe M H 32).toArray
  f2 M fun i => q.getD i 0

/-- Initial chaining value: the bytes `0x40, 0x41, ..., 0x7f` as big-endian words. -/
def init : Words := Vector.ofFn fun i => BitVec.ofNat 32 (0x40414243 + 0x04040404 * i.val)

/-- Chaining value of the final compression: `0xaaaaaaa0, ..., 0xaaaaaaaf`. -/
def final : Words := Vector.ofFn fun i => BitVec.ofNat 32 (0xaaaaaaa0 + i.val)

/-- Padding: a 1 bit, zeros, and the length in bits as 64 bits, to a multiple of 64 bytes. -/
def pad (msg : List Byte) : List Byte :=
  msg ++ [0x80] ++ List.replicate ((119 - msg.length % 64) % 64) 0 ++ leBytes 8 (8 * msg.length)

/-- The words of a 64-byte block. -/
def words (b : List Byte) : Words := Vector.ofFn fun i => BitVec.ofNat 32 (leNat ((b.drop (4 * i.val)).take 4))

/-- Blue Midnight Wish 256. -/
def hash (msg : List Byte) : List Byte :=
  let H := (chunks 64 (pad msg)).foldl (fun H b => compress H (words b)) init
  let H := compress final H
  (H.toList.drop 8).flatMap fun w => leBytes 4 w.toNat

end Spec.Bmw

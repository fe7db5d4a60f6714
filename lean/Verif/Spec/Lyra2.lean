import Verif.Spec.Bytes
import Verif.Spec.Blake2b

/-!
Lyra2 (Simplicio et al., "The Lyra2 reference guide"), with `b = 768` bits (12 words) of bitrate, one round in the reduced
sponge, twelve in the full one, as a small functional program over a matrix `M : row → column → block`.

The row order of the wandering phase and the rule that picks `row*` are parameters, so that one text covers
* the reference (`Order.reference`, `Pick.reference`: everything modulo the number of rows),
* the bit-mask rule of the crate (`Order.mask`, `Pick.mask`), for any number of rows,
* the `row*` rule of Lyra2REv3 (`Pick.rev3`).
-/

namespace Spec.Lyra2
open Spec.Blake2b (W)

/-- The sponge state. -/
abbrev Sponge := Vector W 16
/-- A block: as many words as the bitrate. -/
abbrev Block := Vector W 12
/-- The memory matrix. -/
abbrev Mem := Nat → Nat → Block

/-- The full sponge transformation. -/
def f (s : Sponge) : Sponge := Blake2b.rounds 12 s
/-- The reduced-round sponge transformation. -/
def fρ (s : Sponge) : Sponge := Blake2b.round s

/-- The bitrate part of the state. -/
def rate (s : Sponge) : Block := Vector.ofFn fun i => s[i.val]
/-- Xors a block into the bitrate part of the state. -/
def xorRate (s : Sponge) (b : Block) : Sponge := Vector.ofFn fun i => if h : i.val < 12 then s[i] ^^^ b[i.val] else s[i]
/-- Xors eight words into the state (the BLAKE2-safe rate used for the input). -/
def xorSafe (s : Sponge) (b : Vector W 8) : Sponge := Vector.ofFn fun i => if h : i.val < 8 then s[i] ^^^ b[i.val] else s[i]

/-- Word-wise addition. -/
def badd (x y : Block) : Block := Vector.ofFn fun i => x[i] + y[i]
/-- Word-wise exclusive or. -/
def bxor (x y : Block) : Block := Vector.ofFn fun i => x[i] ^^^ y[i]
/-- Rotation of a block by one word: word `i` moves to position `i + 1`. -/
def rotW (x : Block) : Block := Vector.ofFn fun i => x[(i.val + 11) % 12]'(Nat.mod_lt _ (by decide))

/-- `M[r][c] := b`. -/
def put (M : Mem) (r c : Nat) (b : Block) : Mem := fun r' c' => if r' = r ∧ c' = c then b else M r' c'

/-- State before anything is absorbed: eight zero words and the BLAKE2b IV. -/
def start : Sponge := Vector.ofFn fun i => if h : i.val < 8 then 0 else Blake2b.iv[i.val - 8]

/-- Word `i` of a list of words (0 beyond the end; the padded input always has complete blocks). -/
def wordAt (ws : List W) (i : Nat) : W := ws.getD i 0

/-- Absorbs a sequence of `n` 8-word blocks. -/
def absorbInput (ws : List W) (n : Nat) (s : Sponge) : Sponge :=
  (List.range n).foldl (fun s j => f (xorSafe s (Vector.ofFn fun i => wordAt ws (8 * j + i)))) s

/-! ## Padding -/

/-- Number of 64-byte blocks of the padded input, for `len` bytes of password and salt together. -/
def nBlocks (len : Nat) : Nat := (len + 48) / 64 + 1

/-- The six parameters that are absorbed with the input. -/
def basil (k pwdLen saltLen T R C : Nat) : List Nat := [k, pwdLen, saltLen, T, R, C]

/-- Reference padding, on bytes: `pwd || salt || basil || 10*1`, to a multiple of 64 bytes. -/
def refPad (k : Nat) (pwd salt : List Byte) (T R C : Nat) : List Byte :=
  let msg := pwd ++ salt ++ (basil k pwd.length salt.length T R C).flatMap (leBytes 8)
  let n := 64 * nBlocks (pwd.length + salt.length)
  -- `0x80`, zeros, and `0x01` xored into the last byte
  let tail := [0x80] ++ List.replicate (n - msg.length - 1) 0
  msg ++ tail.dropLast ++ [tail.getLastD 0 ^^^ 0x01]

/-- Reference input as a word sequence. -/
def refWords (k : Nat) (pwd salt : List Byte) (T R C : Nat) : List W := words64 (refPad k pwd salt T R C)

/-- The word sequence the crate absorbs: complete words of the password and of the salt, the basil with the true
lengths, `0x80`, zeros, and `0x01` in the last byte of the last block. -/
def crateWords (k : Nat) (pwd salt : List Byte) (T R C : Nat) : List W :=
  let msg := words64 pwd ++ words64 salt ++ (basil k pwd.length salt.length T R C).map (BitVec.ofNat 64)
  let n := 8 * nBlocks (pwd.length + salt.length)
  let tail := [0x80] ++ List.replicate (n - msg.length - 1) 0
  msg ++ tail.dropLast ++ [tail.getLastD 0 ^^^ 0x0100000000000000]

/-! ## Setup -/

/-- Row 0: squeezed from the sponge, column `C - 1` first. -/
def row0 (C : Nat) (s : Sponge) (M : Mem) : Sponge × Mem :=
  (List.range C).foldl (fun (s, M) c => (fρ s, put M 0 (C - 1 - c) (rate s))) (s, M)

/-- Row 1: absorbs row 0, written in reverse column order. -/
def row1 (C : Nat) (s : Sponge) (M : Mem) : Sponge × Mem :=
  (List.range C).foldl (fun (s, M) c =>
    let s := fρ (xorRate s (M 0 c))
    (s, put M 1 (C - 1 - c) (bxor (M 0 c) (rate s)))) (s, M)

/-- One column of a setup row: `rand := H.duplex(M[prev][c] ⊞ M[row*][c])`, `M[row][C-1-c] := M[prev][c] ⊕ rand`,
`M[row*][c] ⊕= rotW(rand)`. -/
def setupCol (C prev rowStar row : Nat) (sM : Sponge × Mem) (c : Nat) : Sponge × Mem :=
  let (s, M) := sM
  let s := fρ (xorRate s (badd (M prev c) (M rowStar c)))
  let M := put M row (C - 1 - c) (bxor (M prev c) (rate s))
  let M := put M rowStar c (bxor (M rowStar c) (rotW (rate s)))
  (s, M)

/-- One setup row. -/
def setupRow (C prev rowStar row : Nat) (sM : Sponge × Mem) : Sponge × Mem :=
  (List.range C).foldl (setupCol C prev rowStar row) sM

/-- The visitation step for the window of `2^j` rows: 1, then alternately one more and one less than half the window. -/
def setupStep (j : Nat) : Nat :=
  if j ≤ 1 then 1 else if j % 2 = 0 then 2 ^ (j - 1) + 1 else 2 ^ (j - 1) - 1

/-- The row revisited while row `row ≥ 2` is computed: with `2^j ≤ row < 2^(j+1)` the window is `[0, 2^j)`, traversed
from 0 in steps of `setupStep j` modulo `2^j`. -/
def setupStar (row : Nat) : Nat :=
  let j := Nat.log2 row
  (row - 2 ^ j) * setupStep j % 2 ^ j

/-- Rows 2, ..., R-1. -/
def setupRows (R C : Nat) (sM : Sponge × Mem) : Sponge × Mem :=
  (List.range (R - 2)).foldl (fun sM i => setupRow C (i + 1) (setupStar (i + 2)) (i + 2) sM) sM

/-- The setup phase. -/
def setup (R C : Nat) (s : Sponge) (M : Mem) : Sponge × Mem :=
  let (s, M) := row0 C s M
  let (s, M) := row1 C s M
  setupRows R C (s, M)

/-! ## Wandering -/

/-- A rule that picks `row*`: from the state and a memory word carried along (used by the Lyra2REv3 rule only). -/
abbrev Pick := Sponge → W → Nat × W

/-- Reference rule: `row* = state[0] mod R`. -/
def Pick.reference (R : Nat) : Pick := fun s i => (s[0].toNat % R, i)
/-- Bit-mask rule: `row* = state[0] AND (R - 1)`. -/
def Pick.mask (R : Nat) : Pick := fun s i => (s[0].toNat &&& (R - 1), i)
/-- Lyra2REv3 rule: `i := state[i mod 16]; row* = state[i mod 16] AND (R - 1)`. -/
def Pick.rev3 (R : Nat) : Pick := fun s i =>
  let i := s[i.toNat % 16]'(Nat.mod_lt _ (by decide))
  ((s[i.toNat % 16]'(Nat.mod_lt _ (by decide))).toNat &&& (R - 1), i)

/-- The rows visited by pass number `τ = 1, 2, ...`, in order. -/
abbrev Order := Nat → List Nat

/-- `x, next x, next (next x), ...` up to (and without) the first return to 0; at most `fuel` elements. -/
def orbit (next : Nat → Nat) : Nat → Nat → List Nat
  | 0, _ => []
  | fuel + 1, x => x :: (if next x = 0 then [] else orbit next fuel (next x))

/-- Reference successor of a row: plus `R/2 - 1` in odd passes, minus one in even passes; modulo `R`. -/
def modNext (R τ : Nat) (row : Nat) : Nat :=
  if τ % 2 = 1 then (row + (R / 2 - 1)) % R else (row + (R - 1)) % R

/-- Reference order: from row 0 until row 0 comes up again. -/
def Order.reference (R : Nat) : Order := fun τ => orbit (modNext R τ) R 0

/-- Bit-mask successor of a row: plus `R/2 - 1` in odd passes, minus one in even passes; `AND (R - 1)`. -/
def maskNext (R τ : Nat) (row : Nat) : Nat :=
  if τ % 2 = 1 then (row + (R / 2 - 1)) &&& (R - 1)
  else if row = 0 then R - 1 else (row - 1) &&& (R - 1)

/-- Bit-mask order: from row 0 until row 0 comes up again. -/
def Order.mask (R : Nat) : Order := fun τ => orbit (maskNext R τ) R 0

/-- One column of a wandering row: `rand := H.duplex(M[prev][c] ⊞ M[row*][c])`, `M[row][c] ⊕= rand`,
`M[row*][c] ⊕= rotW(rand)`. -/
def wanderCol (prev rowStar row : Nat) (sM : Sponge × Mem) (c : Nat) : Sponge × Mem :=
  let (s, M) := sM
  let s := fρ (xorRate s (badd (M prev c) (M rowStar c)))
  let M := put M row c (bxor (M row c) (rate s))
  let M := put M rowStar c (bxor (M rowStar c) (rotW (rate s)))
  (s, M)

/-- What the wandering phase keeps track of. -/
structure Wander where
  s : Sponge
  M : Mem
  prev : Nat
  rowStar : Nat
  word : W

/-- One row operation of the wandering phase. -/
def wanderRow (pick : Pick) (C : Nat) (v : Wander) (row : Nat) : Wander :=
  let (rowStar, word) := pick v.s v.word
  let (s, M) := (List.range C).foldl (wanderCol v.prev rowStar row) (v.s, v.M)
  { s, M, prev := row, rowStar, word }

/-- Passes `1, ..., T`. -/
def wander (order : Order) (pick : Pick) (T C : Nat) (v : Wander) : Wander :=
  (List.range T).foldl (fun v i => (order (i + 1)).foldl (wanderRow pick C) v) v

/-! ## Wrap-up -/

/-- Squeezes `k` bytes. -/
def squeeze (k : Nat) (s : Sponge) : List Byte :=
  ((List.range (k / 96 + 1)).flatMap fun i =>
    (rate (Blake2b.rounds (12 * i) s)).toList.flatMap fun w => leBytes 8 w.toNat).take k

/-- Lyra2 on the padded input `ws`: `T` passes over an `R x C` matrix, `k` bytes of output. -/
def run (order : Order) (pick : Pick) (ws : List W) (k T R C : Nat) : List Byte :=
  let s := absorbInput ws (ws.length / 8) start
  let (s, M) := setup R C s (fun _ _ => Vector.replicate 12 0)
  let v := wander order pick T C { s, M, prev := R - 1, rowStar := 0, word := 0 }
  squeeze k (f (xorRate v.s (v.M v.rowStar 0)))

/-- The reference Lyra2. -/
def reference (k : Nat) (pwd salt : List Byte) (T R C : Nat) : List Byte :=
  run (Order.reference R) (Pick.reference R) (refWords k pwd salt T R C) k T R C

/-- Lyra2 with the rows picked by bit mask, on the input words of the crate. -/
def masked (k : Nat) (pwd salt : List Byte) (T R C : Nat) : List Byte :=
  run (Order.mask R) (Pick.mask R) (crateWords k pwd salt T R C) k T R C

/-- The Lyra2REv3 variant of the reference, defined when the number of rows is a power of two. -/
def rev3 (k : Nat) (pwd salt : List Byte) (T R C : Nat) : List Byte :=
  run (Order.reference R) (Pick.rev3 R) (refWords k pwd salt T R C) k T R C

/-- The Lyra2REv3 variant with the rows ordered by bit mask, on the input words of the crate. -/
def rev3Masked (k : Nat) (pwd salt : List Byte) (T R C : Nat) : List Byte :=
  run (Order.mask R) (Pick.rev3 R) (crateWords k pwd salt T R C) k T R C

/-- The arguments for which a call is meaningful: at least one pass, three rows and one block of input, an output of at
most one block, and an input that fits in a matrix that can be allocated. -/
structure Domain (k pwdLen saltLen T R C : Nat) : Prop where
  passes : 1 ≤ T
  rows : 3 ≤ R
  output : k ≤ 96
  memory : 96 * (R * C) < 2 ^ 63
  input : 8 * nBlocks (pwdLen + saltLen) ≤ 12 * (R * C)

end Spec.Lyra2

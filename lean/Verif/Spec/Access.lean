import Verif.Event
import Verif.Spec.Lyra2

/-!
The memory accesses of Lyra2 on an `R x C` matrix of blocks of twelve words, stored row by row in one vector.
-/

namespace Spec.Access
open Spec.Lyra2
open Spec.Blake2b (W)

/-- Position of word `w` of the block in row `r`, column `c`. -/
def word (C r c w : Nat) : Nat := 12 * (C * r + c) + w

/-- The same access for the twelve words of a block, one word after the other. -/
def each (access : Nat → List Event) : List Event := (List.range 12).flatMap access

/-- Something done for the columns `0, 1, ..., C - 1`. -/
def columns (C : Nat) (access : Nat → List Event) : List Event := (List.range C).flatMap access

/-- The input: `n` words of message and padding from the start of the matrix on, then the last bit of padding in the last of the
`b` blocks of 8 words. -/
def input (n b : Nat) : List Event := (List.range n).map .write ++ [.read (8 * b - 1), .write (8 * b - 1)]

/-- Absorbing `b` blocks of 8 words from a matrix of `N` words, each by way of a copy of the rest of the matrix. -/
def absorb (N b : Nat) : List Event := (List.range b).flatMap fun i => [.copy (8 * i) (N - 8 * i), .permute]

/-- Row 0 is filled from its last column to its first. -/
def row0 (C : Nat) : List Event := columns C fun c => each (fun w => [.write (word C 0 (C - 1 - c) w)]) ++ [.round]

/-- Row 1 is computed, from its last column to its first, from row 0. -/
def row1 (C : Nat) : List Event := columns C fun c =>
  each (fun w => [.read (word C 0 c w)]) ++ [.round] ++
  each (fun w => [.read (word C 0 c w), .write (word C 1 (C - 1 - c) w)])

/-- Row `row` is computed, from its last column to its first, from rows `prev` and `star`; `star` is updated. -/
def setupRow (C prev star row : Nat) : List Event := columns C fun c =>
  each (fun w => [.read (word C prev c w), .read (word C star c w)]) ++ [.round] ++
  each (fun w => [.read (word C prev c w), .write (word C row (C - 1 - c) w)]) ++
  each (fun w => [.read (word C star c w), .write (word C star c w)])

/-- Rows `row` and `star` are updated from rows `prev` and `star`. -/
def wanderRow (C prev star row : Nat) : List Event := columns C fun c =>
  each (fun w => [.read (word C prev c w), .read (word C star c w)]) ++ [.round] ++
  each (fun w => [.read (word C row c w), .write (word C row c w)]) ++
  each (fun w => [.read (word C star c w), .write (word C star c w)])

/-- The setup phase. -/
def setup (R C : Nat) : List Event :=
  row0 C ++ row1 C ++ (List.range (R - 2)).flatMap fun i => setupRow C (i + 1) (setupStar (i + 2)) (i + 2)

/-- Everything up to the end of the setup phase, for inputs of `a` and `b` bytes. -/
def beforeWander (a b R C : Nat) : List Event :=
  input (a / 8 + b / 8 + 7) (nBlocks (a + b)) ++ absorb (12 * (R * C)) (nBlocks (a + b)) ++ setup R C

/-- The wandering phase over the rows `rows`, with the given choices of `row*`, after row `prev`. -/
def wander (C : Nat) : Nat → List Nat → List Nat → List Event
  | prev, row :: rows, star :: stars => wanderRow C prev star row ++ wander C row rows stars
  | _, _, _ => []

/-- The final absorption of the first block of row `star` of a matrix of `N` words, and the extraction of `k` bytes. -/
def wrapUp (N C star k : Nat) : List Event :=
  [.copy (12 * C * star) (N - 12 * C * star), .permute] ++ List.replicate (k / 96 + 1) .permute

/-- The choices of `row*` along the rows `rows`, starting from the variables `v`. -/
def stars (pick : Pick) (C : Nat) : Wander → List Nat → List Nat
  | _, [] => []
  | v, row :: rows => (pick v.s v.word).1 :: stars pick C (Lyra2.wanderRow pick C v row) rows

/-- The wandering phase of the Lyra2REv3 variant: every choice of `row*` reads two words of the state, whose positions are part of
the choice. -/
def wanderRev3 (C : Nat) : Nat → List Nat → List (Nat × Nat × Nat) → List Event
  | prev, row :: rows, (i, j, star) :: choices =>
    [.state i, .state j] ++ wanderRow C prev star row ++ wanderRev3 C row rows choices
  | _, _, _ => []

/-- The choices of the Lyra2REv3 variant along the rows `rows`: the two positions in the state, and `row*`. -/
def choices (R C : Nat) : Wander → List Nat → List (Nat × Nat × Nat)
  | _, [] => []
  | v, row :: rows =>
    (v.word.toNat % 16, (Pick.rev3 R v.s v.word).2.toNat % 16, (Pick.rev3 R v.s v.word).1) ::
      choices R C (Lyra2.wanderRow (Pick.rev3 R) C v row) rows

/-! ## Complete calls -/

/-- The rows computed by passes `1, ..., T`. -/
def rows (R T : Nat) : List Nat := (List.range T).flatMap fun t => Order.mask R (t + 1)

/-- The variables of the wandering phase after setup, for the padded input `ws`. -/
def afterSetup (ws : List W) (R C : Nat) : Wander :=
  let sM := Lyra2.setup R C (absorbInput ws (ws.length / 8) start) (fun _ _ => Vector.replicate 12 0)
  { s := sM.1, M := sM.2, prev := R - 1, rowStar := 0, word := 0 }

/-- The accesses of a call with inputs of `a` and `b` bytes and the choices `stars`. -/
def call (k a b T R C : Nat) (stars : List Nat) : List Event :=
  beforeWander a b R C ++ wander C (R - 1) (rows R T) stars ++ wrapUp (12 * (R * C)) C (stars.getLastD 0) k

/-- The same for the Lyra2REv3 variant. -/
def callRev3 (k a b T R C : Nat) (cs : List (Nat × Nat × Nat)) : List Event :=
  beforeWander a b R C ++ wanderRev3 C (R - 1) (rows R T) cs ++ wrapUp (12 * (R * C)) C ((cs.map fun c => c.2.2).getLastD 0) k

end Spec.Access

import Verif.Model.Lyra2mod
import Verif.Spec.Lyra2
import Verif.Spec.Trace

/-! Small definitions used in the statements of the property theorems. -/

namespace Props
open Rust

/-- The five conditions under which a call of `lyra2` returns: at least one pass, at least three rows, an output of at
most 96 bytes, a matrix (96 bytes per cell) of at most `isize::MAX` bytes, and enough room in the matrix (12 words per
cell) for the padded input, which has `(pwdLen + saltLen + 48) / 64 + 1` blocks of 8 words. -/
def Accepts (k : U64) (pwdLen saltLen : Nat) (T R C : U64) : Prop :=
  1 ≤ T.toNat ∧ 3 ≤ R.toNat ∧ k.toNat ≤ 96 ∧ 96 * (R.toNat * C.toNat) ≤ isizeMax ∧
    8 * ((pwdLen + saltLen + 48) / 64 + 1) ≤ 12 * (R.toNat * C.toNat)

/-- A matrix of `R` rows and `C` columns that can exist: at least three rows, one column, at most `isize::MAX` bytes. -/
structure Shape (R C : U64) : Prop where
  rows : 3 ≤ R.toNat
  cols : 1 ≤ C.toNat
  memory : 96 * (R.toNat * C.toNat) ≤ isizeMax

/-- Words per row. -/
def rowLen (C : U64) : I64 := BitVec.ofNat 64 (12 * C.toNat)

/-- Word `i` of the matrix belongs to row `r`. -/
def InRow (C : U64) (r i : Nat) : Prop := 12 * C.toNat * r ≤ i ∧ i < 12 * C.toNat * (r + 1)

/-- The variables of `lyra2` at the start of a pass of the wandering phase: a matrix of the right size with any content,
any sponge state, row 0 to be computed, `prev` and `row*` rows of the matrix. -/
structure PassStart (R C : U64) (v : Model.Lyra2.WanderVars) : Prop where
  size : v.m.size = 12 * (R.toNat * C.toNat)
  row : v.row = 0
  prev : v.prev.toNat < R.toNat
  rowa : v.rowa.toNat < R.toNat

/-- The same for `lyra2mod`. -/
structure PassStartMod (R C : U64) (v : Model.Lyra2mod.WanderVars) : Prop where
  size : v.m.size = 12 * (R.toNat * C.toNat)
  row : v.row = 0
  prev : v.prev.toNat < R.toNat
  rowa : v.rowa.toNat < R.toNat

end Props

import Verif.Model.Chains

/-!
The functions of `/repo/src/lyra2.rs` and `/repo/src/lyra2mod/mod.rs` that depend on the width of `usize`, for a target on
which `usize` has `u` bits (32 or 64).

`Model/Lyra2.lean` is the case `u = 64`, where `i64 as usize` and `u64 as usize` are the identity on bits; here they keep
the lower `u` bits (`usz`). The other functions (the sponge, the readers, `absorbInput`, the loop variables) contain no cast
to `usize` of a value that can exceed 31 bits and are shared with `Model/Lyra2.lean`.
The helper functions of `src/lyra2mod/mod.rs` have the same text as those of `src/lyra2.rs` and are not repeated.
CubeHash and BMW use no computed `usize` value and are the same on all targets.
-/

namespace Model.Target
open Rust Model.Utils
open Model.Lyra2 (State Matrix BLOCKLENINT64 BLOCKLENBYTES BLOCKLENBLAKE2SAFEBYTES blake2b_lyra reduced_blake2b_lyra absorb_block
  absorbInput init_state SetupVars WanderVars wanderStep)

/-- `x as usize` for `x : i64` or `x : u64`. -/
def usz (u : Nat) (x : BitVec 64) : Nat := x.toNat % 2 ^ u

/-- `isize::MAX`. -/
def isizeMax (u : Nat) : Nat := 2 ^ (u - 1) - 1

/-- `a + b` on `usize`. -/
def usizeAdd (u : Nat) (p : Profile) (a b : Nat) : Res Nat :=
  if a + b < 2 ^ u then pure (a + b)
  else if p.checked then throw .overflow else pure ((a + b) % 2 ^ u)

/-- `vec![x; n]` for elements of `elemSize` bytes; panics when the vector would exceed `isize::MAX` bytes. -/
def vecOf (u : Nat) {α : Type} (elemSize : Nat) (x : α) (n : Nat) : Res (Array α) :=
  if elemSize * n ≤ isizeMax u then pure (Array.replicate n x) else throw .capacity

/-- `v.extend_from_slice(s)` for byte vectors; panics when the vector would exceed `isize::MAX` bytes. -/
def extend (u : Nat) (v s : List U8) : Res (List U8) :=
  if v.length + s.length ≤ isizeMax u then pure (v ++ s) else throw .capacity

/-- `squeeze`, src/lyra2.rs:148-162. The twelve calls of `extend_from_slice` (lines 154-156) of one round are one call with the
96 bytes: the first of them that panics ends the function. -/
def squeeze (u : Nat) (p : Profile) (state : State) (output_size : U64) : Res (List U8) := do
  let out ← vecOf u 1 (0 : U8) (usz u output_size)
  let jmax ← iadd p (idiv output_size BLOCKLENBYTES) 1
  let (_, out, _) ← forLoop 0 (irangeLen 0 jmax)
    (fun _ (tmp, _, state) => do
      let tmp ← extend u tmp ((state.toList.take 12).flatMap toLeBytes64)
      let out ← slice tmp 0 (usz u output_size)
      let state := blake2b_lyra state
      pure (tmp, out, state))
    (([] : List U8), out.toList, state)
  pure out

/-- src/lyra2.rs:272-275: row length and the zeroed matrix. -/
def allocMatrix (u : Nat) (p : Profile) (n_rows n_cols : U64) : Res (I64 × Matrix) := do
  let row_len_int64 ← imul p BLOCKLENINT64 n_cols
  let i ← imul p n_rows row_len_int64
  let whole_matrix ← vecOf u 8 (0 : U64) (usz u i)
  pure (row_len_int64, whole_matrix)

/-- src/lyra2.rs:284-285: `n_blocks_input`; `usize as i64` keeps the value. -/
def nBlocksInput (u : Nat) (p : Profile) (pwdLen saltLen : Nat) : Res I64 := do
  let a ← usizeAdd u p saltLen pwdLen
  let b ← usizeAdd u p a (6 * 8)
  iadd p (idiv (BitVec.ofNat 64 b) BLOCKLENBLAKE2SAFEBYTES) 1

/-- src/lyra2.rs:286-324: password, salt, basil and padding are written into the matrix. The `usize` values `ptr_byte` and
`ptr_byte + j` are at most a quarter of `isize::MAX` plus 6. -/
def writeInput (u : Nat) (p : Profile) (k : U64) (pwd salt : List U8) (time_cost n_rows n_cols : U64)
    (n_blocks_input : I64) (m : Matrix) : Res Matrix := do
  let ptr_byte := 0
  let m ← Model.Lyra2.writeWords pwd ptr_byte m
  let ptr_byte := ptr_byte + pwd.length / 8
  let m ← Model.Lyra2.writeWords salt ptr_byte m
  let ptr_byte := ptr_byte + salt.length / 8
  let m ← vset m ptr_byte k
  let ptr_byte := ptr_byte + 1
  let m ← vset m ptr_byte (BitVec.ofNat 64 pwd.length)
  let ptr_byte := ptr_byte + 1
  let m ← vset m ptr_byte (BitVec.ofNat 64 salt.length)
  let ptr_byte := ptr_byte + 1
  let m ← vset m ptr_byte time_cost
  let ptr_byte := ptr_byte + 1
  let m ← vset m ptr_byte n_rows
  let ptr_byte := ptr_byte + 1
  let m ← vset m ptr_byte n_cols
  let ptr_byte := ptr_byte + 1
  let m ← vset m ptr_byte 0x80
  let a ← imul p n_blocks_input BLOCKLENBLAKE2SAFEBYTES
  let ptr_byte ← isub p (idiv a 8) 1
  let x ← vget m (usz u ptr_byte)
  vset m (usz u ptr_byte) (x ^^^ 0x0100000000000000)

/-- src/lyra2.rs:344-366: `reducedSqueezeRow0`. -/
def squeezeRow0 (u : Nat) (p : Profile) (n_cols : U64) (state : State) (m : Matrix) : Res (State × Matrix) := do
  let ptr ← imul p (← isub p n_cols 1) BLOCKLENINT64
  let (state, m, _) ← forLoop 0 n_cols.toNat (fun _ (state, m, ptr) => do
    let m ← unroll12 (fun w m => do
      let i ← iadd p ptr (BitVec.ofNat 64 w)
      vset m (usz u i) state[w]) m
    let ptr := ptr - BLOCKLENINT64
    let state := reduced_blake2b_lyra state
    pure (state, m, ptr)) (state, m, ptr)
  pure (state, m)

/-- `(_i as i64 * BLOCKLENINT64 + w) as usize`, e.g. src/lyra2.rs:372. -/
def idxRow0 (u : Nat) (p : Profile) (i : U64) (w : Fin 12) : Res Nat := do
  let a ← imul p i BLOCKLENINT64
  let b ← iadd p a (BitVec.ofNat 64 w)
  pure (usz u b)

/-- `((n_cols - _i - 1) as i64 * BLOCKLENINT64 + row_len_int64 + w) as usize`, e.g. src/lyra2.rs:390. -/
def idxRow1Rev (u : Nat) (p : Profile) (n_cols : U64) (row_len_int64 : I64) (i : U64) (w : Fin 12) : Res Nat := do
  let a ← imul p (← usub p (← usub p n_cols i) 1) BLOCKLENINT64
  let b ← iadd p a row_len_int64
  let c ← iadd p b (BitVec.ofNat 64 w)
  pure (usz u c)

/-- `(_i as i64 * BLOCKLENINT64 + r * row_len_int64 + w) as usize`, e.g. src/lyra2.rs:424. -/
def idx (u : Nat) (p : Profile) (row_len_int64 : I64) (i : U64) (r : I64) (w : Fin 12) : Res Nat := do
  let a ← imul p i BLOCKLENINT64
  let b ← imul p r row_len_int64
  let c ← iadd p a b
  let d ← iadd p c (BitVec.ofNat 64 w)
  pure (usz u d)

/-- `((n_cols - _i - 1) as i64 * BLOCKLENINT64 + row * row_len_int64 + w) as usize`, e.g. src/lyra2.rs:475. -/
def idxRev (u : Nat) (p : Profile) (n_cols : U64) (row_len_int64 : I64) (i : U64) (r : I64) (w : Fin 12) : Res Nat := do
  let a ← imul p (← usub p (← usub p n_cols i) 1) BLOCKLENINT64
  let b ← imul p r row_len_int64
  let c ← iadd p a b
  let d ← iadd p c (BitVec.ofNat 64 w)
  pure (usz u d)

/-- src/lyra2.rs:369-412: `reducedDuplexRow1`. -/
def duplexRow1 (u : Nat) (p : Profile) (n_cols : U64) (row_len_int64 : I64) (state : State) (m : Matrix) :
    Res (State × Matrix) :=
  forLoop 0 n_cols.toNat (fun i (state, m) => do
    let i := BitVec.ofNat 64 i
    let state ← unroll12 (fun w (state : State) => do
      let x ← vget m (← idxRow0 u p i w)
      pure (state.set w (state[w] ^^^ x))) state
    let state := reduced_blake2b_lyra state
    let m ← unroll12 (fun w m => do
      let x ← vget m (← idxRow0 u p i w)
      vset m (← idxRow1Rev u p n_cols row_len_int64 i w) (x ^^^ state[w])) m
    pure (state, m)) (state, m)

/-- Absorbing `M[prev] [+] M[row*]` into the state, src/lyra2.rs:420-467 (setup) and 548-597 (wandering). -/
def absorbSum (u : Nat) (p : Profile) (row_len_int64 : I64) (i : U64) (prev rowa : I64) (m : Matrix) (state : State) : Res State :=
  unroll12 (fun w (state : State) => do
    let x ← vget m (← idx u p row_len_int64 i prev w)
    let y ← vget m (← idx u p row_len_int64 i rowa w)
    pure (state.set w (state[w] ^^^ (x + y)))) state

/-- `M[row*][col] ^= rotW(rand)`, src/lyra2.rs:499-510 (setup) and 617-628 (wandering). -/
def xorRotW (u : Nat) (p : Profile) (row_len_int64 : I64) (i : U64) (rowa : I64) (state : State) (m : Matrix) : Res Matrix :=
  unroll12 (fun w m => do
    let j ← idx u p row_len_int64 i rowa w
    let x ← vget m j
    vset m j (x ^^^ state[((w : Nat) + 11) % 12]'(by omega))) m

/-- src/lyra2.rs:418-511: `reducedDuplexRowSetup`. -/
def duplexRowSetup (u : Nat) (p : Profile) (n_cols : U64) (row_len_int64 : I64) (prev rowa row : I64) (state : State)
    (m : Matrix) : Res (State × Matrix) :=
  forLoop 0 n_cols.toNat (fun i (state, m) => do
    let i := BitVec.ofNat 64 i
    let state ← absorbSum u p row_len_int64 i prev rowa m state
    let state := reduced_blake2b_lyra state
    let m ← unroll12 (fun w m => do
      let x ← vget m (← idx u p row_len_int64 i prev w)
      vset m (← idxRev u p n_cols row_len_int64 i row w) (x ^^^ state[w])) m
    let m ← xorRotW u p row_len_int64 i rowa state m
    pure (state, m)) (state, m)

/-- src/lyra2.rs:414-526: rows 2, 3, ..., `n_rows - 1`. -/
def setupRows (u : Nat) (p : Profile) (n_rows n_cols : U64) (row_len_int64 : I64) (state : State) (m : Matrix) :
    Res (State × Matrix × SetupVars) :=
  forLoop 2 (irangeLen 2 n_rows) (fun _ (state, m, v) => do
    let (state, m) ← duplexRowSetup u p n_cols row_len_int64 v.prev v.rowa v.row state m
    let v ← v.next p
    pure (state, m, v)) (state, m, SetupVars.start)

/-- src/lyra2.rs:547-629: `reducedDuplexRow`. -/
def duplexRow (u : Nat) (p : Profile) (n_cols : U64) (row_len_int64 : I64) (prev rowa row : I64) (state : State) (m : Matrix) :
    Res (State × Matrix) :=
  forLoop 0 n_cols.toNat (fun i (state, m) => do
    let i := BitVec.ofNat 64 i
    let state ← absorbSum u p row_len_int64 i prev rowa m state
    let state := reduced_blake2b_lyra state
    let m ← unroll12 (fun w m => do
      let j ← idx u p row_len_int64 i row w
      let x ← vget m j
      vset m j (x ^^^ state[w])) m
    let m ← xorRotW u p row_len_int64 i rowa state m
    pure (state, m)) (state, m)

/-- Body of the inner `loop`, src/lyra2.rs:538-642. -/
def wanderBody (u : Nat) (p : Profile) (n_rows n_cols : U64) (row_len_int64 step : I64) (v : WanderVars) :
    Res (WanderVars ⊕ WanderVars) := do
  let rowa : I64 := v.state[0] &&& (← usub p n_rows 1)
  let (state, m) ← duplexRow u p n_cols row_len_int64 v.prev rowa v.row v.state v.m
  let prev := v.row
  let row := (← iadd p v.row step) &&& (← isub p n_rows 1)
  let v : WanderVars := { state, m, prev, row, rowa }
  if row = 0 then pure (.inr v) else pure (.inl v)

/-- src/lyra2.rs:530-643: the wandering phase, `for _tau in 1..=time_cost`. -/
def wander (u : Nat) (p : Profile) (time_cost n_rows n_cols : U64) (row_len_int64 : I64) (v : WanderVars) : Res WanderVars :=
  forLoop 1 time_cost.toNat (fun tau v => do
    let step ← wanderStep p n_rows tau
    loop (wanderBody u p n_rows n_cols row_len_int64 step) v) v

/-- src/lyra2.rs:648-651: absorbs the block at the start of row `rowa` and squeezes the key. -/
def wrapUp (u : Nat) (p : Profile) (k : U64) (row_len_int64 : I64) (v : WanderVars) : Res (List U8) := do
  let at_ ← imul p v.rowa row_len_int64
  let right ← splitRight v.m (usz u at_)
  let state ← absorb_block v.state right
  squeeze u p state k

/-- `lyra2`, src/lyra2.rs:245-653. -/
def lyra2 (u : Nat) (p : Profile) (k : U64) (pwd salt : List U8) (time_cost n_rows n_cols : U64) : Res (List U8) := do
  if time_cost.toNat < 1 then throw .explicit
  if n_rows.toNat < 3 then throw .explicit
  let (row_len_int64, m) ← allocMatrix u p n_rows n_cols
  let n_blocks_input ← nBlocksInput u p pwd.length salt.length
  let m ← writeInput u p k pwd salt time_cost n_rows n_cols n_blocks_input m
  let state ← absorbInput n_blocks_input m init_state
  let (state, m) ← squeezeRow0 u p n_cols state m
  let (state, m) ← duplexRow1 u p n_cols row_len_int64 state m
  let (state, m, v) ← setupRows u p n_rows n_cols row_len_int64 state m
  let w ← wander u p time_cost n_rows n_cols row_len_int64 { state, m, prev := v.prev, row := 0, rowa := v.rowa }
  wrapUp u p k row_len_int64 w

/-- `sum`, src/lyra2.rs:669-672. -/
def sum (u : Nat) (p : Profile) (input : List U8) : Res (List U8) := lyra2 u p 32 input input 1 4 4

/-! ## `lyra2mod` -/

/-- Body of the inner `loop`, src/lyra2mod/mod.rs:516-621. -/
def modWanderBody (u : Nat) (p : Profile) (n_rows n_cols : U64) (row_len_int64 step : I64) (v : Model.Lyra2mod.WanderVars) :
    Res (Model.Lyra2mod.WanderVars ⊕ Model.Lyra2mod.WanderVars) := do
  let index ← aget v.state (usz u v.index &&& 0xf)
  let rowa : I64 := (← aget v.state (usz u index &&& 0xf)) &&& (← usub p n_rows 1)
  let (state, m) ← duplexRow u p n_cols row_len_int64 v.prev rowa v.row v.state v.m
  let prev := v.row
  let row := (← iadd p v.row step) &&& (← isub p n_rows 1)
  let v : Model.Lyra2mod.WanderVars := { state, m, prev, row, rowa, index }
  if row = 0 then pure (.inr v) else pure (.inl v)

/-- src/lyra2mod/mod.rs:508-622: the wandering phase. -/
def modWander (u : Nat) (p : Profile) (time_cost n_rows n_cols : U64) (row_len_int64 : I64) (v : Model.Lyra2mod.WanderVars) :
    Res Model.Lyra2mod.WanderVars :=
  forLoop 1 time_cost.toNat (fun tau v => do
    let step ← wanderStep p n_rows tau
    loop (modWanderBody u p n_rows n_cols row_len_int64 step) v) v

/-- `lyra2mod`, src/lyra2mod/mod.rs:222-632. -/
def lyra2mod (u : Nat) (p : Profile) (k : U64) (pwd salt : List U8) (time_cost n_rows n_cols : U64) : Res (List U8) := do
  if time_cost.toNat < 1 then throw .explicit
  if n_rows.toNat < 3 then throw .explicit
  let (row_len_int64, m) ← allocMatrix u p n_rows n_cols
  let n_blocks_input ← nBlocksInput u p pwd.length salt.length
  let m ← writeInput u p k pwd salt time_cost n_rows n_cols n_blocks_input m
  let state ← absorbInput n_blocks_input m init_state
  let (state, m) ← squeezeRow0 u p n_cols state m
  let (state, m) ← duplexRow1 u p n_cols row_len_int64 state m
  let (state, m, v) ← setupRows u p n_rows n_cols row_len_int64 state m
  let w ← modWander u p time_cost n_rows n_cols row_len_int64 { state, m, prev := v.prev, row := 0, rowa := v.rowa, index := 0 }
  wrapUp u p k row_len_int64 { state := w.state, m := w.m, prev := w.prev, row := w.row, rowa := w.rowa }

/-- `sum`, src/lyra2mod/mod.rs:634-637. -/
def modSum (u : Nat) (p : Profile) (input : List U8) : Res (List U8) := lyra2mod u p 32 input input 1 4 4

/-! ## The chains -/

open Model.Chains (Digests)

/-- `lyra2re::sum`, src/lyra2re.rs:23-35. -/
def lyra2re (u : Nat) (p : Profile) (d : Digests) (input : List U8) : Res (List U8) := do
  let result_blake := d.blake256 input
  let result_keccak256_1 := d.keccak256 result_blake
  let result_keccak256_2 := result_keccak256_1
  let result_lyra2 ← lyra2 u p 32 result_keccak256_1 result_keccak256_2 1 8 8
  let result_skein := d.skein512_256 result_lyra2
  pure (d.groestl256 result_skein)

/-- `lyra2rev2::sum`, src/lyra2rev2.rs:25-39. -/
def lyra2rev2 (u : Nat) (p : Profile) (d : Digests) (input : List U8) : Res (List U8) := do
  let result_blake := d.blake256 input
  let result_keccak256 := d.keccak256 result_blake
  let result_cube ← CubeHash.sum result_keccak256
  let result_lyra2 ← sum u p result_cube
  let result_skein := d.skein512_256 result_lyra2
  let result_cube3 ← CubeHash.sum result_skein
  Bmw.sum result_cube3

/-- `lyra2rev3::sum`, src/lyra2rev3.rs:23-33. -/
def lyra2rev3 (u : Nat) (p : Profile) (d : Digests) (input : List U8) : Res (List U8) := do
  let result_blake := d.blake256 input
  let result_lyra2_mod_1 ← modSum u p result_blake
  let result_cube ← CubeHash.sum result_lyra2_mod_1
  let result_lyra2_mod_2 ← modSum u p result_cube
  Bmw.sum result_lyra2_mod_2

/-- `lyra2z::sum`, src/lyra2z.rs:21-27. -/
def lyra2z (u : Nat) (p : Profile) (d : Digests) (input : List U8) : Res (List U8) := do
  let result_blake_1 := d.blake256 input
  let result_blake_2 := result_blake_1
  lyra2 u p 32 result_blake_1 result_blake_2 8 8 8

end Model.Target

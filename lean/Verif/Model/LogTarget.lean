import Verif.Model.LogChains
import Verif.Model.Target

/-!
The functions of `Model/Log.lean` and `Model/LogChains.lean` that depend on the width of `usize`, for a target on which `usize` has `u`
bits (32 or 64). They are to `Model/Target.lean` what `Model/Log.lean` is to `Model/Lyra2.lean`: the same functions, with a log of the
accesses to the memory matrix. Positions in the log are those that the target accesses, after the casts to its `usize`.
-/

namespace Model.LogTarget
open Rust hiding forLoop loop unroll12
open Model.Utils
open Model.Log (Logged quiet emit get put tail permute round absorb_block writeWords absorbInput forLoop loop unroll12)
open Model.Lyra2 (State Matrix BLOCKLENINT64 BLOCKLENBYTES BLOCKLENBLAKE2SAFEBYTES init_state SetupVars WanderVars wanderStep)
open Model.Target (usz allocMatrix nBlocksInput idx idxRev idxRow0 idxRow1Rev)

/-- `squeeze`, src/lyra2.rs:148-162. -/
def squeeze (u : Nat) (p : Profile) (state : State) (output_size : U64) : Logged (List U8) := do
  let out ← quiet (Target.vecOf u 1 (0 : U8) (usz u output_size))
  let jmax ← quiet (iadd p (idiv output_size BLOCKLENBYTES) 1)
  let (_, out, _) ← forLoop 0 (irangeLen 0 jmax)
    (fun _ (tmp, _, state) => do
      let tmp ← quiet (Target.extend u tmp ((state.toList.take 12).flatMap toLeBytes64))
      let out ← quiet (slice tmp 0 (usz u output_size))
      let state ← permute state
      pure (tmp, out, state))
    (([] : List U8), out.toList, state)
  pure out

/-- src/lyra2.rs:286-324: password, salt, basil and padding are written into the matrix. -/
def writeInput (u : Nat) (p : Profile) (k : U64) (pwd salt : List U8) (time_cost n_rows n_cols : U64)
    (n_blocks_input : I64) (m : Matrix) : Logged Matrix := do
  let ptr_byte := 0
  let m ← writeWords pwd ptr_byte m
  let ptr_byte := ptr_byte + pwd.length / 8
  let m ← writeWords salt ptr_byte m
  let ptr_byte := ptr_byte + salt.length / 8
  let m ← put m ptr_byte k
  let ptr_byte := ptr_byte + 1
  let m ← put m ptr_byte (BitVec.ofNat 64 pwd.length)
  let ptr_byte := ptr_byte + 1
  let m ← put m ptr_byte (BitVec.ofNat 64 salt.length)
  let ptr_byte := ptr_byte + 1
  let m ← put m ptr_byte time_cost
  let ptr_byte := ptr_byte + 1
  let m ← put m ptr_byte n_rows
  let ptr_byte := ptr_byte + 1
  let m ← put m ptr_byte n_cols
  let ptr_byte := ptr_byte + 1
  let m ← put m ptr_byte 0x80
  let a ← quiet (imul p n_blocks_input BLOCKLENBLAKE2SAFEBYTES)
  let ptr_byte ← quiet (isub p (idiv a 8) 1)
  let x ← get m (usz u ptr_byte)
  put m (usz u ptr_byte) (x ^^^ 0x0100000000000000)

/-- src/lyra2.rs:344-366: `reducedSqueezeRow0`. -/
def squeezeRow0 (u : Nat) (p : Profile) (n_cols : U64) (state : State) (m : Matrix) : Logged (State × Matrix) := do
  let c1 ← quiet (isub p n_cols 1)
  let ptr ← quiet (imul p c1 BLOCKLENINT64)
  let (state, m, _) ← forLoop 0 n_cols.toNat (fun _ (state, m, ptr) => do
    let m ← unroll12 (fun w m => do
      let i ← quiet (iadd p ptr (BitVec.ofNat 64 w))
      put m (usz u i) state[w]) m
    let ptr := ptr - BLOCKLENINT64
    let state ← round state
    pure (state, m, ptr)) (state, m, ptr)
  pure (state, m)

/-- src/lyra2.rs:369-412: `reducedDuplexRow1`. -/
def duplexRow1 (u : Nat) (p : Profile) (n_cols : U64) (row_len_int64 : I64) (state : State) (m : Matrix) : Logged (State × Matrix) :=
  forLoop 0 n_cols.toNat (fun i (state, m) => do
    let i := BitVec.ofNat 64 i
    -- lines 371-382
    let state ← unroll12 (fun w (state : State) => do
      let j ← quiet (idxRow0 u p i w)
      let x ← get m j
      pure (state.set w (state[w] ^^^ x))) state
    -- line 385
    let state ← round state
    -- lines 388-411
    let m ← unroll12 (fun w m => do
      let j ← quiet (idxRow0 u p i w)
      let x ← get m j
      let j' ← quiet (idxRow1Rev u p n_cols row_len_int64 i w)
      put m j' (x ^^^ state[w])) m
    pure (state, m)) (state, m)

/-- Absorbing `M[prev] [+] M[row*]` into the state, src/lyra2.rs:420-467 (setup) and 548-597 (wandering). -/
def absorbSum (u : Nat) (p : Profile) (row_len_int64 : I64) (i : U64) (prev rowa : I64) (m : Matrix) (state : State) : Logged State :=
  unroll12 (fun w (state : State) => do
    let j ← quiet (idx u p row_len_int64 i prev w)
    let x ← get m j
    let j' ← quiet (idx u p row_len_int64 i rowa w)
    let y ← get m j'
    pure (state.set w (state[w] ^^^ (x + y)))) state

/-- `M[row*][col] ^= rotW(rand)`, src/lyra2.rs:499-510 (setup) and 617-628 (wandering). -/
def xorRotW (u : Nat) (p : Profile) (row_len_int64 : I64) (i : U64) (rowa : I64) (state : State) (m : Matrix) : Logged Matrix :=
  unroll12 (fun w m => do
    let j ← quiet (idx u p row_len_int64 i rowa w)
    let x ← get m j
    put m j (x ^^^ state[((w : Nat) + 11) % 12]'(by omega))) m

/-- src/lyra2.rs:418-511: `reducedDuplexRowSetup`. -/
def duplexRowSetup (u : Nat) (p : Profile) (n_cols : U64) (row_len_int64 : I64) (prev rowa row : I64) (state : State) (m : Matrix) :
    Logged (State × Matrix) :=
  forLoop 0 n_cols.toNat (fun i (state, m) => do
    let i := BitVec.ofNat 64 i
    -- lines 420-467
    let state ← absorbSum u p row_len_int64 i prev rowa m state
    -- line 470
    let state ← round state
    -- lines 473-496
    let m ← unroll12 (fun w m => do
      let j ← quiet (idx u p row_len_int64 i prev w)
      let x ← get m j
      let j' ← quiet (idxRev u p n_cols row_len_int64 i row w)
      put m j' (x ^^^ state[w])) m
    -- lines 499-510
    let m ← xorRotW u p row_len_int64 i rowa state m
    pure (state, m)) (state, m)

/-- src/lyra2.rs:414-526: rows 2, 3, ..., `n_rows - 1`. -/
def setupRows (u : Nat) (p : Profile) (n_rows n_cols : U64) (row_len_int64 : I64) (state : State) (m : Matrix) :
    Logged (State × Matrix × SetupVars) :=
  forLoop 2 (irangeLen 2 n_rows) (fun _ (state, m, v) => do
    let (state, m) ← duplexRowSetup u p n_cols row_len_int64 v.prev v.rowa v.row state m
    let v ← quiet (v.next p)
    pure (state, m, v)) (state, m, SetupVars.start)

/-- src/lyra2.rs:547-629: `reducedDuplexRow`. -/
def duplexRow (u : Nat) (p : Profile) (n_cols : U64) (row_len_int64 : I64) (prev rowa row : I64) (state : State) (m : Matrix) :
    Logged (State × Matrix) :=
  forLoop 0 n_cols.toNat (fun i (state, m) => do
    let i := BitVec.ofNat 64 i
    -- lines 548-597
    let state ← absorbSum u p row_len_int64 i prev rowa m state
    -- line 600
    let state ← round state
    -- lines 603-614
    let m ← unroll12 (fun w m => do
      let j ← quiet (idx u p row_len_int64 i row w)
      let x ← get m j
      put m j (x ^^^ state[w])) m
    -- lines 617-628
    let m ← xorRotW u p row_len_int64 i rowa state m
    pure (state, m)) (state, m)

/-- Body of the inner `loop`, src/lyra2.rs:538-642. -/
def wanderBody (u : Nat) (p : Profile) (n_rows n_cols : U64) (row_len_int64 step : I64) (v : WanderVars) :
    Logged (WanderVars ⊕ WanderVars) := do
  -- line 542
  let mask ← quiet (usub p n_rows 1)
  let rowa : I64 := v.state[0] &&& mask
  -- lines 547-629
  let (state, m) ← duplexRow u p n_cols row_len_int64 v.prev rowa v.row v.state v.m
  -- line 632
  let prev := v.row
  -- line 637
  let next ← quiet (iadd p v.row step)
  let mask ← quiet (isub p n_rows 1)
  let row := next &&& mask
  let v : WanderVars := { state, m, prev, row, rowa }
  -- lines 639-641
  if row = 0 then pure (.inr v) else pure (.inl v)

/-- src/lyra2.rs:530-643: the wandering phase. -/
def wander (u : Nat) (p : Profile) (time_cost n_rows n_cols : U64) (row_len_int64 : I64) (v : WanderVars) : Logged WanderVars :=
  forLoop 1 time_cost.toNat (fun tau v => do
    let step ← quiet (wanderStep p n_rows tau)
    loop (wanderBody u p n_rows n_cols row_len_int64 step) v) v

/-- src/lyra2.rs:648-651: absorbs the block at the start of row `rowa` and squeezes the key. -/
def wrapUp (u : Nat) (p : Profile) (k : U64) (row_len_int64 rowa : I64) (m : Matrix) (state : State) : Logged (List U8) := do
  let at_ ← quiet (imul p rowa row_len_int64)
  let right ← tail m (usz u at_)
  let state ← absorb_block state right
  squeeze u p state k

/-- src/lyra2.rs:254-526: everything before the wandering phase. -/
def beforeWander (u : Nat) (p : Profile) (k : U64) (pwd salt : List U8) (time_cost n_rows n_cols : U64) :
    Logged (I64 × State × Matrix × SetupVars) := do
  -- lines 254-255
  if time_cost.toNat < 1 then quiet (throw .explicit)
  if n_rows.toNat < 3 then quiet (throw .explicit)
  -- lines 272-275
  let (row_len_int64, m) ← quiet (allocMatrix u p n_rows n_cols)
  -- lines 284-324
  let n_blocks_input ← quiet (nBlocksInput u p pwd.length salt.length)
  let m ← writeInput u p k pwd salt time_cost n_rows n_cols n_blocks_input m
  -- lines 329-339
  let state ← absorbInput n_blocks_input m init_state
  -- lines 344-412
  let (state, m) ← squeezeRow0 u p n_cols state m
  let (state, m) ← duplexRow1 u p n_cols row_len_int64 state m
  -- lines 414-526
  let (state, m, v) ← setupRows u p n_rows n_cols row_len_int64 state m
  pure (row_len_int64, state, m, v)

/-- `lyra2`, src/lyra2.rs:245-653. -/
def lyra2 (u : Nat) (p : Profile) (k : U64) (pwd salt : List U8) (time_cost n_rows n_cols : U64) : Logged (List U8) := do
  let (row_len_int64, state, m, v) ← beforeWander u p k pwd salt time_cost n_rows n_cols
  -- lines 530-643
  let w ← wander u p time_cost n_rows n_cols row_len_int64 { state, m, prev := v.prev, row := 0, rowa := v.rowa }
  -- lines 648-651
  wrapUp u p k row_len_int64 w.rowa w.m w.state

/-- Body of the inner `loop` of `lyra2mod`, src/lyra2mod/mod.rs:516-621. -/
def modWanderBody (u : Nat) (p : Profile) (n_rows n_cols : U64) (row_len_int64 step : I64) (v : Lyra2mod.WanderVars) :
    Logged (Lyra2mod.WanderVars ⊕ Lyra2mod.WanderVars) := do
  -- line 520
  emit (.state (usz u v.index &&& 0xf))
  let index ← quiet (aget v.state (usz u v.index &&& 0xf))
  -- line 521
  emit (.state (usz u index &&& 0xf))
  let x ← quiet (aget v.state (usz u index &&& 0xf))
  let mask ← quiet (usub p n_rows 1)
  let rowa : I64 := x &&& mask
  -- lines 526-608
  let (state, m) ← duplexRow u p n_cols row_len_int64 v.prev rowa v.row v.state v.m
  -- line 611
  let prev := v.row
  -- line 616
  let next ← quiet (iadd p v.row step)
  let mask ← quiet (isub p n_rows 1)
  let row := next &&& mask
  let v : Lyra2mod.WanderVars := { state, m, prev, row, rowa, index }
  -- lines 618-620
  if row = 0 then pure (.inr v) else pure (.inl v)

/-- src/lyra2mod/mod.rs:508-622: the wandering phase. -/
def modWander (u : Nat) (p : Profile) (time_cost n_rows n_cols : U64) (row_len_int64 : I64) (v : Lyra2mod.WanderVars) :
    Logged Lyra2mod.WanderVars :=
  forLoop 1 time_cost.toNat (fun tau v => do
    let step ← quiet (wanderStep p n_rows tau)
    loop (modWanderBody u p n_rows n_cols row_len_int64 step) v) v

/-- `lyra2mod`, src/lyra2mod/mod.rs:222-632; the lines before the wandering phase (231-503) and after it (627-630) are those of
`lyra2`. -/
def lyra2mod (u : Nat) (p : Profile) (k : U64) (pwd salt : List U8) (time_cost n_rows n_cols : U64) : Logged (List U8) := do
  let (row_len_int64, state, m, v) ← beforeWander u p k pwd salt time_cost n_rows n_cols
  -- lines 508-622
  let w ← modWander u p time_cost n_rows n_cols row_len_int64 { state, m, prev := v.prev, row := 0, rowa := v.rowa, index := 0 }
  -- lines 627-630
  wrapUp u p k row_len_int64 w.rowa w.m w.state

/-! ## The chains -/

open Model.Chains (Digests)

/-- `lyra2::sum`, src/lyra2.rs:669-672. -/
def lyra2Sum (u : Nat) (p : Profile) (input : List U8) : Logged (List U8) := lyra2 u p 32 input input 1 4 4

/-- `lyra2mod::sum`, src/lyra2mod/mod.rs:634-637. -/
def lyra2modSum (u : Nat) (p : Profile) (input : List U8) : Logged (List U8) := lyra2mod u p 32 input input 1 4 4

/-- `lyra2re::sum`, src/lyra2re.rs:23-35. -/
def lyra2re (u : Nat) (p : Profile) (d : Digests) (input : List U8) : Logged (List U8) := do
  let result_blake := d.blake256 input
  let result_keccak256_1 := d.keccak256 result_blake
  let result_keccak256_2 := result_keccak256_1
  let result_lyra2 ← lyra2 u p 32 result_keccak256_1 result_keccak256_2 1 8 8
  let result_skein := d.skein512_256 result_lyra2
  pure (d.groestl256 result_skein)

/-- `lyra2rev2::sum`, src/lyra2rev2.rs:25-39. -/
def lyra2rev2 (u : Nat) (p : Profile) (d : Digests) (input : List U8) : Logged (List U8) := do
  let result_blake := d.blake256 input
  let result_keccak256 := d.keccak256 result_blake
  let result_cube ← quiet (CubeHash.sum result_keccak256)
  let result_lyra2 ← lyra2Sum u p result_cube
  let result_skein := d.skein512_256 result_lyra2
  let result_cube3 ← quiet (CubeHash.sum result_skein)
  quiet (Bmw.sum result_cube3)

/-- `lyra2rev3::sum`, src/lyra2rev3.rs:23-33. -/
def lyra2rev3 (u : Nat) (p : Profile) (d : Digests) (input : List U8) : Logged (List U8) := do
  let result_blake := d.blake256 input
  let result_lyra2_mod_1 ← lyra2modSum u p result_blake
  let result_cube ← quiet (CubeHash.sum result_lyra2_mod_1)
  let result_lyra2_mod_2 ← lyra2modSum u p result_cube
  quiet (Bmw.sum result_lyra2_mod_2)

/-- `lyra2z::sum`, src/lyra2z.rs:21-27. -/
def lyra2z (u : Nat) (p : Profile) (d : Digests) (input : List U8) : Logged (List U8) := do
  let result_blake_1 := d.blake256 input
  let result_blake_2 := result_blake_1
  lyra2 u p 32 result_blake_1 result_blake_2 8 8 8

end Model.LogTarget

import Verif.Logged
import Verif.Model.Lyra2mod

/-!
`/repo/src/lyra2.rs` and `/repo/src/lyra2mod/mod.rs` once more, with a log of what they do with the memory matrix and of the
applications of the sponge transformation.

The functions are those of `Model/Lyra2.lean`; each read or write of a word of `whole_matrix`, each copy of a part of it and each
application of the sponge transformation also appends an event to the log, in the order in which the source evaluates them (the
right-hand side of an assignment before its left-hand side). The helper functions of `src/lyra2mod/mod.rs` have the same text as
those of `src/lyra2.rs` and are not repeated.

Not logged: accesses at constant positions of the sixteen-word sponge state and of the copies made by `to_vec`, reading password
and salt (front to back, 8 bytes per word), the zeroing of the matrix, and the bytes of the key.
-/

namespace Model.Log
open Rust Model.Utils
open Model.Lyra2 (State Matrix BLOCKLENINT64 BLOCKLENBYTES BLOCKLENBLAKE2SAFEBYTES blake2b_lyra reduced_blake2b_lyra allocMatrix
  nBlocksInput idx idxRev idxRow0 idxRow1Rev init_state SetupVars WanderVars wanderStep)

/-- `whole_matrix[i]` (read). -/
def get (m : Matrix) (i : Nat) : Logged U64 := do
  emit (.read i)
  quiet (vget m i)

/-- `whole_matrix[i] = x`. -/
def put (m : Matrix) (i : Nat) (x : U64) : Logged Matrix := do
  emit (.write i)
  quiet (vset m i x)

/-- `whole_matrix.split_at(i).1.to_vec()`. -/
def tail (m : Matrix) (i : Nat) : Logged (Array U64) := do
  let t ← quiet (splitRight m i)
  emit (.copy i t.size)
  pure t

/-- `blake2b_lyra`, src/lyra2.rs:115-129. -/
def permute (s : State) : Logged State := do
  emit .permute
  pure (blake2b_lyra s)

/-- `reduced_blake2b_lyra`, src/lyra2.rs:135-138. -/
def round (s : State) : Logged State := do
  emit .round
  pure (reduced_blake2b_lyra s)

/-- `squeeze`, src/lyra2.rs:148-162. -/
def squeeze (p : Profile) (state : State) (output_size : U64) : Logged (List U8) := do
  let out ← quiet (vecOf 1 (0 : U8) output_size.toNat)
  let jmax ← quiet (iadd p (idiv output_size BLOCKLENBYTES) 1)
  let (_, out, _) ← forLoop 0 (irangeLen 0 jmax)
    (fun _ (tmp, _, state) => do
      let tmp := tmp ++ (state.toList.take 12).flatMap toLeBytes64
      let out ← quiet (slice tmp 0 output_size.toNat)
      let state ← permute state
      pure (tmp, out, state))
    (([] : List U8), out.toList, state)
  pure out

/-- `absorb_block`, src/lyra2.rs:171-189. -/
def absorb_block (s : State) (w : Array U64) : Logged State := do
  let s ← quiet (Rust.unroll12 (fun i s => do
    let x ← vget w i
    pure (s.set i (s[i] ^^^ x))) s)
  permute s

/-- `absorb_block_blake2_safe`, src/lyra2.rs:198-211. -/
def absorb_block_blake2_safe (s : State) (w : Array U64) : Logged State := do
  let s ← quiet ((List.finRange 8).foldlM (fun (s : State) (i : Fin 8) => do
    let x ← vget w i
    pure (s.set i (s[i] ^^^ x))) s)
  permute s

/-- src/lyra2.rs:289-293 and 298-302: copies the complete 8-byte words of `bytes` to `whole_matrix[ptr_byte..]`. -/
def writeWords (bytes : List U8) (ptr_byte : Nat) (m : Matrix) : Logged Matrix :=
  forLoop 0 (bytes.length / 8) (fun j m => do
    let start := 8 * j
    let stop := start + 8
    let b ← quiet (slice bytes start stop)
    let x ← quiet (read_u64_le b)
    put m (ptr_byte + j) x) m

/-- src/lyra2.rs:286-324: password, salt, basil and padding are written into the matrix. -/
def writeInput (p : Profile) (k : U64) (pwd salt : List U8) (time_cost n_rows n_cols : U64)
    (n_blocks_input : I64) (m : Matrix) : Logged Matrix := do
  let ptr_byte := 0
  let m ← writeWords pwd ptr_byte m
  let ptr_byte := ptr_byte + pwd.length / 8
  let m ← writeWords salt ptr_byte m
  let ptr_byte := ptr_byte + salt.length / 8
  let m ← put m ptr_byte k
  let ptr_byte := ptr_byte + 1
  let m ← put m ptr_byte (BitVec.ofNat 64 pwd.length)
  let ptr_byte := ptr_byte + 1
  let m ← put m ptr_byte (BitVec.ofNat 64 salt.length)
  let ptr_byte := ptr_byte + 1
  let m ← put m ptr_byte time_cost
  let ptr_byte := ptr_byte + 1
  let m ← put m ptr_byte n_rows
  let ptr_byte := ptr_byte + 1
  let m ← put m ptr_byte n_cols
  let ptr_byte := ptr_byte + 1
  let m ← put m ptr_byte 0x80
  let a ← quiet (imul p n_blocks_input BLOCKLENBLAKE2SAFEBYTES)
  let ptr_byte ← quiet (isub p (idiv a 8) 1)
  let x ← get m ptr_byte.toNat
  put m ptr_byte.toNat (x ^^^ 0x0100000000000000)

/-- src/lyra2.rs:334-339: absorbs the padded input, 8 words at a time. -/
def absorbInput (n_blocks_input : I64) (m : Matrix) (state : State) : Logged State := do
  let (state, _) ← forLoop 0 (irangeLen 0 n_blocks_input) (fun _ (state, ptr_word) => do
    let right ← tail m ptr_word
    let state ← absorb_block_blake2_safe state right
    pure (state, ptr_word + 8)) (state, 0)
  pure state

/-- src/lyra2.rs:344-366: `reducedSqueezeRow0`. -/
def squeezeRow0 (p : Profile) (n_cols : U64) (state : State) (m : Matrix) : Logged (State × Matrix) := do
  let c1 ← quiet (isub p n_cols 1)
  let ptr ← quiet (imul p c1 BLOCKLENINT64)
  let (state, m, _) ← forLoop 0 n_cols.toNat (fun _ (state, m, ptr) => do
    let m ← unroll12 (fun w m => do
      let i ← quiet (iadd p ptr (BitVec.ofNat 64 w))
      put m i.toNat state[w]) m
    let ptr := ptr - BLOCKLENINT64
    let state ← round state
    pure (state, m, ptr)) (state, m, ptr)
  pure (state, m)

/-- src/lyra2.rs:369-412: `reducedDuplexRow1`. -/
def duplexRow1 (p : Profile) (n_cols : U64) (row_len_int64 : I64) (state : State) (m : Matrix) : Logged (State × Matrix) :=
  forLoop 0 n_cols.toNat (fun i (state, m) => do
    let i := BitVec.ofNat 64 i
    -- lines 371-382
    let state ← unroll12 (fun w (state : State) => do
      let j ← quiet (idxRow0 p i w)
      let x ← get m j
      pure (state.set w (state[w] ^^^ x))) state
    -- line 385
    let state ← round state
    -- lines 388-411
    let m ← unroll12 (fun w m => do
      let j ← quiet (idxRow0 p i w)
      let x ← get m j
      let j' ← quiet (idxRow1Rev p n_cols row_len_int64 i w)
      put m j' (x ^^^ state[w])) m
    pure (state, m)) (state, m)

/-- Absorbing `M[prev] [+] M[row*]` into the state, src/lyra2.rs:420-467 (setup) and 548-597 (wandering). -/
def absorbSum (p : Profile) (row_len_int64 : I64) (i : U64) (prev rowa : I64) (m : Matrix) (state : State) : Logged State :=
  unroll12 (fun w (state : State) => do
    let j ← quiet (idx p row_len_int64 i prev w)
    let x ← get m j
    let j' ← quiet (idx p row_len_int64 i rowa w)
    let y ← get m j'
    pure (state.set w (state[w] ^^^ (x + y)))) state

/-- `M[row*][col] ^= rotW(rand)`, src/lyra2.rs:499-510 (setup) and 617-628 (wandering). -/
def xorRotW (p : Profile) (row_len_int64 : I64) (i : U64) (rowa : I64) (state : State) (m : Matrix) : Logged Matrix :=
  unroll12 (fun w m => do
    let j ← quiet (idx p row_len_int64 i rowa w)
    let x ← get m j
    put m j (x ^^^ state[((w : Nat) + 11) % 12]'(by omega))) m

/-- src/lyra2.rs:418-511: `reducedDuplexRowSetup`. -/
def duplexRowSetup (p : Profile) (n_cols : U64) (row_len_int64 : I64) (prev rowa row : I64) (state : State) (m : Matrix) :
    Logged (State × Matrix) :=
  forLoop 0 n_cols.toNat (fun i (state, m) => do
    let i := BitVec.ofNat 64 i
    -- lines 420-467
    let state ← absorbSum p row_len_int64 i prev rowa m state
    -- line 470
    let state ← round state
    -- lines 473-496
    let m ← unroll12 (fun w m => do
      let j ← quiet (idx p row_len_int64 i prev w)
      let x ← get m j
      let j' ← quiet (idxRev p n_cols row_len_int64 i row w)
      put m j' (x ^^^ state[w])) m
    -- lines 499-510
    let m ← xorRotW p row_len_int64 i rowa state m
    pure (state, m)) (state, m)

/-- src/lyra2.rs:414-526: rows 2, 3, ..., `n_rows - 1`. -/
def setupRows (p : Profile) (n_rows n_cols : U64) (row_len_int64 : I64) (state : State) (m : Matrix) :
    Logged (State × Matrix × SetupVars) :=
  forLoop 2 (irangeLen 2 n_rows) (fun _ (state, m, v) => do
    let (state, m) ← duplexRowSetup p n_cols row_len_int64 v.prev v.rowa v.row state m
    let v ← quiet (v.next p)
    pure (state, m, v)) (state, m, SetupVars.start)

/-- src/lyra2.rs:547-629: `reducedDuplexRow`. -/
def duplexRow (p : Profile) (n_cols : U64) (row_len_int64 : I64) (prev rowa row : I64) (state : State) (m : Matrix) :
    Logged (State × Matrix) :=
  forLoop 0 n_cols.toNat (fun i (state, m) => do
    let i := BitVec.ofNat 64 i
    -- lines 548-597
    let state ← absorbSum p row_len_int64 i prev rowa m state
    -- line 600
    let state ← round state
    -- lines 603-614
    let m ← unroll12 (fun w m => do
      let j ← quiet (idx p row_len_int64 i row w)
      let x ← get m j
      put m j (x ^^^ state[w])) m
    -- lines 617-628
    let m ← xorRotW p row_len_int64 i rowa state m
    pure (state, m)) (state, m)

/-- Body of the inner `loop`, src/lyra2.rs:538-642. -/
def wanderBody (p : Profile) (n_rows n_cols : U64) (row_len_int64 step : I64) (v : WanderVars) :
    Logged (WanderVars ⊕ WanderVars) := do
  -- line 542
  let mask ← quiet (usub p n_rows 1)
  let rowa : I64 := v.state[0] &&& mask
  -- lines 547-629
  let (state, m) ← duplexRow p n_cols row_len_int64 v.prev rowa v.row v.state v.m
  -- line 632
  let prev := v.row
  -- line 637
  let next ← quiet (iadd p v.row step)
  let mask ← quiet (isub p n_rows 1)
  let row := next &&& mask
  let v : WanderVars := { state, m, prev, row, rowa }
  -- lines 639-641
  if row = 0 then pure (.inr v) else pure (.inl v)

/-- src/lyra2.rs:530-643: the wandering phase. -/
def wander (p : Profile) (time_cost n_rows n_cols : U64) (row_len_int64 : I64) (v : WanderVars) : Logged WanderVars :=
  forLoop 1 time_cost.toNat (fun tau v => do
    let step ← quiet (wanderStep p n_rows tau)
    loop (wanderBody p n_rows n_cols row_len_int64 step) v) v

/-- src/lyra2.rs:648-651: absorbs the block at the start of row `rowa` and squeezes the key. -/
def wrapUp (p : Profile) (k : U64) (row_len_int64 rowa : I64) (m : Matrix) (state : State) : Logged (List U8) := do
  let at_ ← quiet (imul p rowa row_len_int64)
  let right ← tail m at_.toNat
  let state ← absorb_block state right
  squeeze p state k

/-- src/lyra2.rs:254-526: everything before the wandering phase. -/
def beforeWander (p : Profile) (k : U64) (pwd salt : List U8) (time_cost n_rows n_cols : U64) :
    Logged (I64 × State × Matrix × SetupVars) := do
  -- lines 254-255
  if time_cost.toNat < 1 then quiet (throw .explicit)
  if n_rows.toNat < 3 then quiet (throw .explicit)
  -- lines 272-275
  let (row_len_int64, m) ← quiet (allocMatrix p n_rows n_cols)
  -- lines 284-324
  let n_blocks_input ← quiet (nBlocksInput p pwd.length salt.length)
  let m ← writeInput p k pwd salt time_cost n_rows n_cols n_blocks_input m
  -- lines 329-339
  let state ← absorbInput n_blocks_input m init_state
  -- lines 344-412
  let (state, m) ← squeezeRow0 p n_cols state m
  let (state, m) ← duplexRow1 p n_cols row_len_int64 state m
  -- lines 414-526
  let (state, m, v) ← setupRows p n_rows n_cols row_len_int64 state m
  pure (row_len_int64, state, m, v)

/-- `lyra2`, src/lyra2.rs:245-653. -/
def lyra2 (p : Profile) (k : U64) (pwd salt : List U8) (time_cost n_rows n_cols : U64) : Logged (List U8) := do
  let (row_len_int64, state, m, v) ← beforeWander p k pwd salt time_cost n_rows n_cols
  -- lines 530-643
  let w ← wander p time_cost n_rows n_cols row_len_int64 { state, m, prev := v.prev, row := 0, rowa := v.rowa }
  -- lines 648-651
  wrapUp p k row_len_int64 w.rowa w.m w.state

/-- Body of the inner `loop` of `lyra2mod`, src/lyra2mod/mod.rs:516-621. -/
def modWanderBody (p : Profile) (n_rows n_cols : U64) (row_len_int64 step : I64) (v : Lyra2mod.WanderVars) :
    Logged (Lyra2mod.WanderVars ⊕ Lyra2mod.WanderVars) := do
  -- line 520
  emit (.state (v.index.toNat &&& 0xf))
  let index ← quiet (aget v.state (v.index.toNat &&& 0xf))
  -- line 521
  emit (.state (index.toNat &&& 0xf))
  let x ← quiet (aget v.state (index.toNat &&& 0xf))
  let mask ← quiet (usub p n_rows 1)
  let rowa : I64 := x &&& mask
  -- lines 526-608
  let (state, m) ← duplexRow p n_cols row_len_int64 v.prev rowa v.row v.state v.m
  -- line 611
  let prev := v.row
  -- line 616
  let next ← quiet (iadd p v.row step)
  let mask ← quiet (isub p n_rows 1)
  let row := next &&& mask
  let v : Lyra2mod.WanderVars := { state, m, prev, row, rowa, index }
  -- lines 618-620
  if row = 0 then pure (.inr v) else pure (.inl v)

/-- src/lyra2mod/mod.rs:508-622: the wandering phase. -/
def modWander (p : Profile) (time_cost n_rows n_cols : U64) (row_len_int64 : I64) (v : Lyra2mod.WanderVars) :
    Logged Lyra2mod.WanderVars :=
  forLoop 1 time_cost.toNat (fun tau v => do
    let step ← quiet (wanderStep p n_rows tau)
    loop (modWanderBody p n_rows n_cols row_len_int64 step) v) v

/-- `lyra2mod`, src/lyra2mod/mod.rs:222-632; the lines before the wandering phase (231-503) and after it (627-630) are those of
`lyra2`. -/
def lyra2mod (p : Profile) (k : U64) (pwd salt : List U8) (time_cost n_rows n_cols : U64) : Logged (List U8) := do
  let (row_len_int64, state, m, v) ← beforeWander p k pwd salt time_cost n_rows n_cols
  -- lines 508-622
  let w ← modWander p time_cost n_rows n_cols row_len_int64 { state, m, prev := v.prev, row := 0, rowa := v.rowa, index := 0 }
  -- lines 627-630
  wrapUp p k row_len_int64 w.rowa w.m w.state

end Model.Log

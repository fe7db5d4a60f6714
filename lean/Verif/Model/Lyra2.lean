import Verif.Model.Utils

/-!
Model of `/repo/src/lyra2.rs`, function by function.

Conventions (they apply to every definition below):
* The sponge state `[u64; 16]` is `Vector U64 16`; the `Vec<u64>` `whole_matrix` is `Array U64`; byte vectors are lists.
* Twelve consecutive statements that differ only in the word number `+ 0`, ..., `+ 11` are written with `unroll12`,
  in source order; the source leaves out `+ 0`, which cannot overflow.
* `p : Profile` selects whether `i64`/`u64` overflow panics or wraps.
* `u64 as i64`, `i64 as usize` are the identity on bits (64-bit target).
-/

namespace Model.Lyra2
open Rust Model.Utils

abbrev State := Vector U64 16
abbrev Matrix := Array U64

/-- `BLAKE2BIV`, src/lyra2.rs:6-15. -/
def BLAKE2BIV : Vector U64 8 := #v[
  0x6a09e667f3bcc908,
  0xbb67ae8584caa73b,
  0x3c6ef372fe94f82b,
  0xa54ff53a5f1d36f1,
  0x510e527fade682d1,
  0x9b05688c2b3e6c1f,
  0x1f83d9abfb41bd6b,
  0x5be0cd19137e2179]

/-- src/lyra2.rs:17. -/
def BLOCKLENINT64 : I64 := 12
/-- src/lyra2.rs:18 (`BLOCKLENINT64 * 8`, a constant expression). -/
def BLOCKLENBYTES : I64 := 96
/-- src/lyra2.rs:19. -/
def BLOCKLENBLAKE2SAFEINT64 : I64 := 8
/-- src/lyra2.rs:20 (`BLOCKLENBLAKE2SAFEINT64 * 8`, a constant expression). -/
def BLOCKLENBLAKE2SAFEBYTES : I64 := 64

/-- `rotr64`, src/lyra2.rs:23-25. Only called with the constants 32, 24, 16, 63, for which neither shift overflows. -/
def rotr64 (w : U64) (c : Nat) : U64 := (w >>> c) ||| (w <<< (64 - c))

/-- `g`, src/lyra2.rs:28-39. The array `abcd` is written as four variables. -/
def g (a b c d : U64) : U64 × U64 × U64 × U64 :=
  let a := a + b
  let d := rotr64 (d ^^^ a) 32
  let c := c + d
  let b := rotr64 (b ^^^ c) 24
  let a := a + b
  let d := rotr64 (d ^^^ a) 16
  let c := c + d
  let b := rotr64 (b ^^^ c) 63
  (a, b, c, d)

/-- One group of five statements of `round_lyra`: `abcd = g(v[i], v[j], v[k], v[l])` followed by the four write-backs
(e.g. src/lyra2.rs:43-47). -/
def gAt (v : State) (i j k l : Fin 16) : State :=
  let (a, b, c, d) := g v[i] v[j] v[k] v[l]
  (((v.set i a).set j b).set k c).set l d

/-- `round_lyra`, src/lyra2.rs:42-84. -/
def round_lyra (v : State) : State :=
  let v := gAt v 0 4 8 12
  let v := gAt v 1 5 9 13
  let v := gAt v 2 6 10 14
  let v := gAt v 3 7 11 15
  let v := gAt v 0 5 10 15
  let v := gAt v 1 6 11 12
  let v := gAt v 2 7 8 13
  let v := gAt v 3 4 9 14
  v

/-- `init_state`, src/lyra2.rs:97-108. -/
def init_state : State :=
  let s : State := #v[0, 0, 0, 0, 0, 0, 0, 0, 0, 0, 0, 0, 0, 0, 0, 0]
  let s := s.set 8 BLAKE2BIV[0]
  let s := s.set 9 BLAKE2BIV[1]
  let s := s.set 10 BLAKE2BIV[2]
  let s := s.set 11 BLAKE2BIV[3]
  let s := s.set 12 BLAKE2BIV[4]
  let s := s.set 13 BLAKE2BIV[5]
  let s := s.set 14 BLAKE2BIV[6]
  let s := s.set 15 BLAKE2BIV[7]
  s

/-- `blake2b_lyra`, src/lyra2.rs:115-129. -/
def blake2b_lyra (v : State) : State :=
  let v := round_lyra v
  let v := round_lyra v
  let v := round_lyra v
  let v := round_lyra v
  let v := round_lyra v
  let v := round_lyra v
  let v := round_lyra v
  let v := round_lyra v
  let v := round_lyra v
  let v := round_lyra v
  let v := round_lyra v
  let v := round_lyra v
  v

/-- `reduced_blake2b_lyra`, src/lyra2.rs:135-138. -/
def reduced_blake2b_lyra (v : State) : State := round_lyra v

/-- `squeeze`, src/lyra2.rs:148-162. `out` is `vec![0; output_size]`, so the copy into `out[..output_size]` (line 158)
replaces all of it; the copy itself panics when `tmp` is still shorter than `output_size`. -/
def squeeze (p : Profile) (state : State) (output_size : U64) : Res (List U8) := do
  let out ← vecOf 1 (0 : U8) output_size.toNat
  let jmax ← iadd p (idiv output_size BLOCKLENBYTES) 1
  let (_, out, _) ← forLoop 0 (irangeLen 0 jmax)
    (fun _ (tmp, _, state) => do
      let tmp := tmp ++ (state.toList.take 12).flatMap toLeBytes64
      let out ← slice tmp 0 output_size.toNat
      let state := blake2b_lyra state
      pure (tmp, out, state))
    (([] : List U8), out.toList, state)
  pure out

/-- `absorb_block`, src/lyra2.rs:171-189. -/
def absorb_block (s : State) (w : Array U64) : Res State := do
  let s ← unroll12 (fun i s => do
    let x ← vget w i
    pure (s.set i (s[i] ^^^ x))) s
  pure (blake2b_lyra s)

/-- `absorb_block_blake2_safe`, src/lyra2.rs:198-211 (eight unrolled statements written as a loop). -/
def absorb_block_blake2_safe (s : State) (w : Array U64) : Res State := do
  let s ← (List.finRange 8).foldlM (fun (s : State) (i : Fin 8) => do
    let x ← vget w i
    pure (s.set i (s[i] ^^^ x))) s
  pure (blake2b_lyra s)

/-! ## The pieces of `lyra2`, in source order -/

/-- src/lyra2.rs:272-275: row length and the zeroed matrix. The `resize` to the length it already has does nothing. -/
def allocMatrix (p : Profile) (n_rows n_cols : U64) : Res (I64 × Matrix) := do
  let row_len_int64 ← imul p BLOCKLENINT64 n_cols
  let i ← imul p n_rows row_len_int64
  let whole_matrix ← vecOf 8 (0 : U64) i.toNat
  pure (row_len_int64, whole_matrix)

/-- src/lyra2.rs:284-285: `n_blocks_input`. -/
def nBlocksInput (p : Profile) (pwdLen saltLen : Nat) : Res I64 := do
  let a ← usizeAdd p saltLen pwdLen
  let b ← usizeAdd p a (6 * 8)
  iadd p (idiv (BitVec.ofNat 64 b) BLOCKLENBLAKE2SAFEBYTES) 1

/-- src/lyra2.rs:289-293 and 298-302: copies the complete 8-byte words of `bytes` to `whole_matrix[ptr_byte..]`.
The `usize` expressions `8 * j`, `start + 8`, `ptr_byte + j` stay below `2^62 + 2^62` because a `Vec` has at most
`isize::MAX` bytes. -/
def writeWords (bytes : List U8) (ptr_byte : Nat) (m : Matrix) : Res Matrix :=
  forLoop 0 (bytes.length / 8) (fun j m => do
    let start := 8 * j
    let stop := start + 8
    let x ← read_u64_le (← slice bytes start stop)
    vset m (ptr_byte + j) x) m

/-- src/lyra2.rs:286-324: password, salt, basil and padding are written into the matrix. -/
def writeInput (p : Profile) (k : U64) (pwd salt : List U8) (time_cost n_rows n_cols : U64)
    (n_blocks_input : I64) (m : Matrix) : Res Matrix := do
  let ptr_byte := 0
  let m ← writeWords pwd ptr_byte m
  let ptr_byte := ptr_byte + pwd.length / 8
  let m ← writeWords salt ptr_byte m
  let ptr_byte := ptr_byte + salt.length / 8
  let m ← vset m ptr_byte k
  let ptr_byte := ptr_byte + 1
  let m ← vset m ptr_byte (BitVec.ofNat 64 pwd.length)
  let ptr_byte := ptr_byte + 1
  let m ← vset m ptr_byte (BitVec.ofNat 64 salt.length)
  let ptr_byte := ptr_byte + 1
  let m ← vset m ptr_byte time_cost
  let ptr_byte := ptr_byte + 1
  let m ← vset m ptr_byte n_rows
  let ptr_byte := ptr_byte + 1
  let m ← vset m ptr_byte n_cols
  let ptr_byte := ptr_byte + 1
  let m ← vset m ptr_byte 0x80
  let a ← imul p n_blocks_input BLOCKLENBLAKE2SAFEBYTES
  let ptr_byte ← isub p (idiv a 8) 1
  let x ← vget m ptr_byte.toNat
  vset m ptr_byte.toNat (x ^^^ 0x0100000000000000)

/-- src/lyra2.rs:334-339: absorbs the padded input, 8 words at a time. `ptr_word` (a `usize`) starts at 0 and grows by
8 per block; it stays below the matrix length plus 8. -/
def absorbInput (n_blocks_input : I64) (m : Matrix) (state : State) : Res State := do
  let (state, _) ← forLoop 0 (irangeLen 0 n_blocks_input) (fun _ (state, ptr_word) => do
    let right ← splitRight m ptr_word
    let state ← absorb_block_blake2_safe state right
    pure (state, ptr_word + 8)) (state, 0)
  pure state

/-- src/lyra2.rs:344-366: `reducedSqueezeRow0`. -/
def squeezeRow0 (p : Profile) (n_cols : U64) (state : State) (m : Matrix) : Res (State × Matrix) := do
  let ptr ← imul p (← isub p n_cols 1) BLOCKLENINT64
  let (state, m, _) ← forLoop 0 n_cols.toNat (fun _ (state, m, ptr) => do
    let m ← unroll12 (fun w m => do
      let i ← iadd p ptr (BitVec.ofNat 64 w)
      vset m i.toNat state[w]) m
    let ptr := ptr - BLOCKLENINT64
    let state := reduced_blake2b_lyra state
    pure (state, m, ptr)) (state, m, ptr)
  pure (state, m)

/-- `(_i as i64 * BLOCKLENINT64 + w) as usize`, e.g. src/lyra2.rs:372. -/
def idxRow0 (p : Profile) (i : U64) (w : Fin 12) : Res Nat := do
  let a ← imul p i BLOCKLENINT64
  let b ← iadd p a (BitVec.ofNat 64 w)
  pure b.toNat

/-- `((n_cols - _i - 1) as i64 * BLOCKLENINT64 + row_len_int64 + w) as usize`, e.g. src/lyra2.rs:390. -/
def idxRow1Rev (p : Profile) (n_cols : U64) (row_len_int64 : I64) (i : U64) (w : Fin 12) : Res Nat := do
  let a ← imul p (← usub p (← usub p n_cols i) 1) BLOCKLENINT64
  let b ← iadd p a row_len_int64
  let c ← iadd p b (BitVec.ofNat 64 w)
  pure c.toNat

/-- `(_i as i64 * BLOCKLENINT64 + r * row_len_int64 + w) as usize`, e.g. src/lyra2.rs:424. -/
def idx (p : Profile) (row_len_int64 : I64) (i : U64) (r : I64) (w : Fin 12) : Res Nat := do
  let a ← imul p i BLOCKLENINT64
  let b ← imul p r row_len_int64
  let c ← iadd p a b
  let d ← iadd p c (BitVec.ofNat 64 w)
  pure d.toNat

/-- `((n_cols - _i - 1) as i64 * BLOCKLENINT64 + row * row_len_int64 + w) as usize`, e.g. src/lyra2.rs:475. -/
def idxRev (p : Profile) (n_cols : U64) (row_len_int64 : I64) (i : U64) (r : I64) (w : Fin 12) : Res Nat := do
  let a ← imul p (← usub p (← usub p n_cols i) 1) BLOCKLENINT64
  let b ← imul p r row_len_int64
  let c ← iadd p a b
  let d ← iadd p c (BitVec.ofNat 64 w)
  pure d.toNat

/-- src/lyra2.rs:369-412: `reducedDuplexRow1`. -/
def duplexRow1 (p : Profile) (n_cols : U64) (row_len_int64 : I64) (state : State) (m : Matrix) : Res (State × Matrix) :=
  forLoop 0 n_cols.toNat (fun i (state, m) => do
    let i := BitVec.ofNat 64 i
    -- lines 371-382
    let state ← unroll12 (fun w (state : State) => do
      let x ← vget m (← idxRow0 p i w)
      pure (state.set w (state[w] ^^^ x))) state
    -- line 385
    let state := reduced_blake2b_lyra state
    -- lines 388-411
    let m ← unroll12 (fun w m => do
      let x ← vget m (← idxRow0 p i w)
      vset m (← idxRow1Rev p n_cols row_len_int64 i w) (x ^^^ state[w])) m
    pure (state, m)) (state, m)

/-- Absorbing `M[prev] [+] M[row*]` into the state, src/lyra2.rs:420-467 (setup) and 548-597 (wandering). -/
def absorbSum (p : Profile) (row_len_int64 : I64) (i : U64) (prev rowa : I64) (m : Matrix) (state : State) : Res State :=
  unroll12 (fun w (state : State) => do
    let x ← vget m (← idx p row_len_int64 i prev w)
    let y ← vget m (← idx p row_len_int64 i rowa w)
    pure (state.set w (state[w] ^^^ (x + y)))) state

/-- `M[row*][col] ^= rotW(rand)`, src/lyra2.rs:499-510 (setup) and 617-628 (wandering): word 0 receives `state[11]`,
word `w > 0` receives `state[w - 1]`. -/
def xorRotW (p : Profile) (row_len_int64 : I64) (i : U64) (rowa : I64) (state : State) (m : Matrix) : Res Matrix :=
  unroll12 (fun w m => do
    let j ← idx p row_len_int64 i rowa w
    let x ← vget m j
    vset m j (x ^^^ state[((w : Nat) + 11) % 12]'(by omega))) m

/-- src/lyra2.rs:418-511: `reducedDuplexRowSetup`. -/
def duplexRowSetup (p : Profile) (n_cols : U64) (row_len_int64 : I64) (prev rowa row : I64) (state : State) (m : Matrix) :
    Res (State × Matrix) :=
  forLoop 0 n_cols.toNat (fun i (state, m) => do
    let i := BitVec.ofNat 64 i
    -- lines 420-467
    let state ← absorbSum p row_len_int64 i prev rowa m state
    -- line 470
    let state := reduced_blake2b_lyra state
    -- lines 473-496
    let m ← unroll12 (fun w m => do
      let x ← vget m (← idx p row_len_int64 i prev w)
      vset m (← idxRev p n_cols row_len_int64 i row w) (x ^^^ state[w])) m
    -- lines 499-510
    let m ← xorRotW p row_len_int64 i rowa state m
    pure (state, m)) (state, m)

/-- The mutable loop variables of the setup loop, src/lyra2.rs:259-265. -/
structure SetupVars where
  row : I64
  prev : I64
  rowa : I64
  step : I64
  window : I64
  gap : I64

/-- Initial values, src/lyra2.rs:259-265. -/
def SetupVars.start : SetupVars := { row := 2, prev := 1, rowa := 0, step := 1, window := 2, gap := 1 }

/-- src/lyra2.rs:514-525: next row, next row*, window bookkeeping. -/
def SetupVars.next (p : Profile) (v : SetupVars) : Res SetupVars := do
  let rowa := (← iadd p v.rowa v.step) &&& (← isub p v.window 1)
  let prev := v.row
  let row ← iadd p v.row 1
  if rowa = 0 then
    let step ← iadd p v.window v.gap
    let window ← imul p v.window 2
    let gap ← ineg p v.gap
    pure { row, prev, rowa, step, window, gap }
  else
    pure { row, prev, rowa, step := v.step, window := v.window, gap := v.gap }

/-- src/lyra2.rs:414-526: rows 2, 3, ..., `n_rows - 1`. -/
def setupRows (p : Profile) (n_rows n_cols : U64) (row_len_int64 : I64) (state : State) (m : Matrix) :
    Res (State × Matrix × SetupVars) :=
  forLoop 2 (irangeLen 2 n_rows) (fun _ (state, m, v) => do
    let (state, m) ← duplexRowSetup p n_cols row_len_int64 v.prev v.rowa v.row state m
    let v ← v.next p
    pure (state, m, v)) (state, m, SetupVars.start)

/-- src/lyra2.rs:547-629: `reducedDuplexRow`. -/
def duplexRow (p : Profile) (n_cols : U64) (row_len_int64 : I64) (prev rowa row : I64) (state : State) (m : Matrix) :
    Res (State × Matrix) :=
  forLoop 0 n_cols.toNat (fun i (state, m) => do
    let i := BitVec.ofNat 64 i
    -- lines 548-597
    let state ← absorbSum p row_len_int64 i prev rowa m state
    -- line 600
    let state := reduced_blake2b_lyra state
    -- lines 603-614
    let m ← unroll12 (fun w m => do
      let j ← idx p row_len_int64 i row w
      let x ← vget m j
      vset m j (x ^^^ state[w])) m
    -- lines 617-628
    let m ← xorRotW p row_len_int64 i rowa state m
    pure (state, m)) (state, m)

/-- The mutable variables of the wandering phase, src/lyra2.rs:530-643. -/
structure WanderVars where
  state : State
  m : Matrix
  prev : I64
  row : I64
  rowa : I64

/-- Body of the inner `loop`, src/lyra2.rs:538-642: `inr` is the `break` of line 640. -/
def wanderBody (p : Profile) (n_rows n_cols : U64) (row_len_int64 step : I64) (v : WanderVars) :
    Res (WanderVars ⊕ WanderVars) := do
  -- line 542
  let rowa : I64 := v.state[0] &&& (← usub p n_rows 1)
  -- lines 547-629
  let (state, m) ← duplexRow p n_cols row_len_int64 v.prev rowa v.row v.state v.m
  -- line 632
  let prev := v.row
  -- line 637
  let row := (← iadd p v.row step) &&& (← isub p n_rows 1)
  let v : WanderVars := { state, m, prev, row, rowa }
  -- lines 639-641
  if row = 0 then pure (.inr v) else pure (.inl v)

/-- src/lyra2.rs:533-536: the visitation step of pass `tau`. -/
def wanderStep (p : Profile) (n_rows : U64) (tau : Nat) : Res I64 := do
  let step ← isub p (idiv n_rows 2) 1
  if tau % 2 = 0 then pure (-1) else pure step

/-- src/lyra2.rs:530-643: the wandering phase, `for _tau in 1..=time_cost`. -/
def wander (p : Profile) (time_cost n_rows n_cols : U64) (row_len_int64 : I64) (v : WanderVars) : Res WanderVars :=
  forLoop 1 time_cost.toNat (fun tau v => do
    let step ← wanderStep p n_rows tau
    loop (wanderBody p n_rows n_cols row_len_int64 step) v) v

/-- src/lyra2.rs:648-651: absorbs the block at the start of row `rowa` and squeezes the key. -/
def wrapUp (p : Profile) (k : U64) (row_len_int64 : I64) (v : WanderVars) : Res (List U8) := do
  let at_ ← imul p v.rowa row_len_int64
  let right ← splitRight v.m at_.toNat
  let state ← absorb_block v.state right
  squeeze p state k

/-- `lyra2`, src/lyra2.rs:245-653. -/
def lyra2 (p : Profile) (k : U64) (pwd salt : List U8) (time_cost n_rows n_cols : U64) : Res (List U8) := do
  -- lines 254-255
  if time_cost.toNat < 1 then throw .explicit
  if n_rows.toNat < 3 then throw .explicit
  -- lines 272-275
  let (row_len_int64, m) ← allocMatrix p n_rows n_cols
  -- lines 284-324
  let n_blocks_input ← nBlocksInput p pwd.length salt.length
  let m ← writeInput p k pwd salt time_cost n_rows n_cols n_blocks_input m
  -- lines 329-339
  let state ← absorbInput n_blocks_input m init_state
  -- lines 344-412
  let (state, m) ← squeezeRow0 p n_cols state m
  let (state, m) ← duplexRow1 p n_cols row_len_int64 state m
  -- lines 414-526
  let (state, m, v) ← setupRows p n_rows n_cols row_len_int64 state m
  -- lines 530-643
  let w ← wander p time_cost n_rows n_cols row_len_int64 { state, m, prev := v.prev, row := 0, rowa := v.rowa }
  -- lines 648-651
  wrapUp p k row_len_int64 w

/-- `sum`, src/lyra2.rs:669-672. -/
def sum (p : Profile) (input : List U8) : Res (List U8) := lyra2 p 32 input input 1 4 4

end Model.Lyra2

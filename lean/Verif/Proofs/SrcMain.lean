import Verif.Proofs.SrcSponge
import Verif.Proofs.LoopIter
import Verif.Proofs.Lyra2Post

/-! The phases of `lyra2` and `lyra2mod`, as they stand in the source. The two functions share all but a few lines. -/

set_option linter.unusedSectionVars false

namespace Source
open Rust hiding isizeMax usizeAdd vecOf
open Model.Lyra2 (State Matrix SetupVars WanderVars BLOCKLENINT64 BLOCKLENBYTES BLOCKLENBLAKE2SAFEINT64 BLOCKLENBLAKE2SAFEBYTES
  absorb_block_blake2_safe absorb_block init_state writeWords)
open Model.Target (usz isizeMax usizeAdd vecOf squeeze nBlocksInput writeInput)
open Model.Utils

/-- The names of the items of a module that its main function uses. -/
structure Names where
  blk : String
  safe64 : String
  safeBytes : String
  init : String
  safe : String
  absorb : String
  squeeze : String
  red : String

/-- The items mean what the model says. -/
structure MainCtx (c : Ctx) (u : Nat) (p : Profile) (N : Names) : Prop extends LyraCtx c u p N.blk N.red where
  isSafe64 : c.call N.safe64 [] = pure (.i64 BLOCKLENBLAKE2SAFEINT64)
  isSafeBytes : c.call N.safeBytes [] = pure (.i64 BLOCKLENBLAKE2SAFEBYTES)
  isInit : c.call N.init [] = pure (.words64 init_state.toArray)
  isSafe : ∀ (s : State) (w : Array U64), c.call N.safe [.words64 s.toArray, .words64 w] =
    (absorb_block_blake2_safe s w >>= fun s' => pure (.words64 s'.toArray))
  isAbsorb : ∀ (s : State) (w : Array U64), c.call N.absorb [.words64 s.toArray, .words64 w] =
    (absorb_block s w >>= fun s' => pure (.words64 s'.toArray))
  isSqueeze : ∀ (s : State) (k : U64), c.call N.squeeze [.words64 s.toArray, .u64 k] = (squeeze u p s k >>= fun xs => pure (.bytes xs))
  isRead : ∀ xs : List U8, c.call "utils::read_u64_le" [.bytes xs] = (read_u64_le xs >>= fun x => pure (.u64 x))
  initExt : N.init ≠ "Vec::with_capacity"
  safeExt : N.safe ≠ "Vec::with_capacity"
  absorbExt : N.absorb ≠ "Vec::with_capacity"
  squeezeExt : N.squeeze ≠ "Vec::with_capacity"

variable {c : Ctx} {u : Nat} [Width u] {p : Profile} {N : Names}

/-! ## Arithmetic on `usize` and `u64` -/

theorem usizeAdd_lt {a b : Nat} (h : a + b < 2 ^ u) : usizeAdd u p a b = pure (a + b) := by
  unfold usizeAdd
  rw [if_pos h]

theorem mul_usize_lt {a b : BitVec 64} (h : a.toNat * b.toNat < 2 ^ u) :
    binOp u p .mul (.usize a) (.usize b) = pure (.usize (BitVec.ofNat 64 (a.toNat * b.toNat))) := by
  show (unsignedSize u p ((a.toNat : Int) * b.toNat) >>= fun x => pure (Val.usize x)) = _
  rw [← Int.natCast_mul, unsignedSize_lt _ h, pure_bind]

theorem unsigned_div {a : BitVec 64} (n : Nat) : unsigned p 64 ((a.toNat : Int).tdiv n) = pure (BitVec.ofNat 64 (a.toNat / n)) := by
  rw [show (a.toNat : Int).tdiv n = ((a.toNat / n : Nat) : Int) from rfl, unsigned_lt]
  exact Nat.lt_of_le_of_lt (Nat.div_le_self _ _) a.isLt

theorem unsigned_rem {a : BitVec 64} (n : Nat) : unsigned p 64 ((a.toNat : Int).tmod n) = pure (BitVec.ofNat 64 (a.toNat % n)) := by
  rw [show (a.toNat : Int).tmod n = ((a.toNat % n : Nat) : Int) from rfl, unsigned_lt]
  exact Nat.lt_of_le_of_lt (Nat.mod_le _ _) a.isLt

theorem div_usize_8 (a : BitVec 64) (h : a.toNat < 2 ^ u) : binOp u p .div (.usize a) (.usize 8#64) = pure (.usize (BitVec.ofNat 64 (a.toNat / 8))) := by
  show (unsignedSize u p ((a.toNat / 8 : Nat) : Int) >>= fun x => pure (Val.usize x)) = _
  rw [unsignedSize_lt _ (by omega), pure_bind]

theorem div_u64_8 (a : BitVec 64) : binOp u p .div (.u64 a) (.u64 8#64) = pure (.u64 (BitVec.ofNat 64 (a.toNat / 8))) := by
  show (unsigned p 64 ((a.toNat : Int).tdiv (8 : Nat)) >>= fun x => pure (Val.u64 x)) = _
  rw [unsigned_div, pure_bind]

theorem rem_u64_2 (a : BitVec 64) : binOp u p .rem (.u64 a) (.u64 2#64) = pure (.u64 (BitVec.ofNat 64 (a.toNat % 2))) := by
  show (unsigned p 64 ((a.toNat : Int).tmod (2 : Nat)) >>= fun x => pure (Val.u64 x)) = _
  rw [unsigned_rem, pure_bind]

theorem eq_u64 (a b : BitVec 64) : binOp u p .eq (.u64 a) (.u64 b) = pure (.bool (a.toNat = b.toNat)) := rfl

theorem repeated_u64 (n : Nat) : repeated u (some (.vec .u64)) (.lit (0 : Nat)) n = (vecOf u 8 (0 : U64) n >>= fun xs => pure (.words64 xs)) := by
  simp only [repeated, asInt_lit, ofLit_u64 0 (by decide), pure_bind, reserve, vecOf]
  unfold maxBytes isizeMax
  split
  · simp only [pure_bind]; rfl
  · rfl

/-- `vec.resize(n, 0)` leaves a vector of length `n` as it is. -/
theorem resize_same (xs : Array U64) (n : BitVec 64) (h : xs.size = n.toNat) (h8 : 8 * xs.size ≤ isizeMax u) :
    applyMutator u "resize" (.words64 xs) [.usize n, .lit (0 : Nat)] = pure (.words64 xs) := by
  have hr : reserve u 8 n.toNat = pure () := by
    unfold reserve
    rw [← h]
    exact if_pos h8
  simp only [applyMutator, asInt_lit, ofLit_u64 0 (by decide), pure_bind, position_usize, hr]
  rw [← h, Nat.sub_self]
  simp

theorem split_words (xs : Array U64) (n : BitVec 64) : applyMethod "split_at" (.words64 xs) [.usize n] =
    (splitRight xs n.toNat >>= fun right => pure (.pair (.words64 (xs.extract 0 n.toNat)) (.words64 right))) := by
  simp only [applyMethod, position_usize, pure_bind]

/-! ## Writing the input -/

/-- A `for` loop over `usize` from 0. -/
theorem exec_for_usize {env : Env} {hi : Expr} {n : BitVec 64} (x : String) (body : List Stmt) (h : eval c env none hi = pure (.usize n)) :
    exec c (.forIn x (.lit 0) hi false body) env =
      (forLoop 0 n.toNat (forBody c x (fun k => .usize (BitVec.ofNat 64 k)) body) env >>= fun env => pure (.next env)) := by
  rw [exec, eval, h, asTy]
  · simp only [pure_bind, num_lit 0 (by decide), num_usize]
    have e1 : ((n.toNat : Int) - ((0 : Nat) : Int) + (if false = true then 1 else 0)).toNat = n.toNat := by simp
    rw [e1]
    have e2 : ∀ k : Nat, rangeVal (.lit ((0 : Nat) : Int)) (.usize n) (((0 : Nat) : Int) + k) = .usize (BitVec.ofNat 64 k) := by
      intro k
      simp [rangeVal]
    simp only [e2]
    rfl
  · simp

/-- The body of the loop that copies the words of `x`. -/
def wordsBody (x : String) : List Stmt :=
  [.letVar "start" none (.bin .mul (.lit 8) (.var "j")),
    .letVar "end" none (.bin .add (.var "start") (.lit 8)),
    .assign (.index (.var "whole_matrix") (.bin .add (.var "ptr_byte") (.var "j")))
      (.call "utils::read_u64_le" [.slice (.var x) (.var "start") (.var "end")])]

/-- The loop that copies the words of `x`. -/
def wordsLoop (x : String) : Stmt := .forIn "j" (.lit 0) (.bin .div (.method (.var x) "len" []) (.lit 8)) false (wordsBody x)

theorem exec_words (hc : MainCtx c u p N) {env : Env} {x : String} {bytes : List U8} {at_ : Nat} {m : Matrix} (hx : Has env x (.bytes bytes))
    (hm : Has env "whole_matrix" (.words64 m)) (hp : Has env "ptr_byte" (.usize (BitVec.ofNat 64 at_)))
    (hx1 : x ≠ "j") (hx2 : x ≠ "start") (hx3 : x ≠ "end") (hx4 : x ≠ "whole_matrix")
    (hb : bytes.length ≤ isizeMax u) (hat : at_ ≤ isizeMax u) :
    exec c (wordsLoop x) env = (writeWords bytes at_ m >>= fun m' => pure (.next (env.upd "whole_matrix" (.words64 m')))) := by
  have hu1 := two_pow_32_le (u := u)
  have hu2 := two_pow_le_64 (u := u)
  have hu3 := two_maxBytes (u := u)
  have hlen : (BitVec.ofNat 64 bytes.length).toNat = bytes.length := by
    simp
    omega
  have hn : eval c env none (.bin .div (.method (.var x) "len" []) (.lit 8)) = pure (.usize (BitVec.ofNat 64 (bytes.length / 8))) := by
    have hx' := hx
    unfold Has at hx'
    have hd := div_usize_8 (u := u) (p := p) (BitVec.ofNat 64 bytes.length) (by omega)
    run_src [hx', hc.width, hc.prof, hd, hlen]
  unfold wordsLoop
  rw [exec_for_usize "j" _ hn]
  have hn2 : (BitVec.ofNat 64 (bytes.length / 8)).toNat = bytes.length / 8 := by
    simp
    omega
  rw [hn2, writeWords]
  have h0 : env = env.upd "whole_matrix" (.words64 m) := (Env.upd_same hm).symm
  conv => lhs; rw [h0]
  rw [forLoop_map (fun m => env.upd "whole_matrix" (.words64 m)) 0 _ (fun j m => do
    let start := 8 * j
    let stop := start + 8
    let x ← read_u64_le (← slice bytes start stop)
    vset m (at_ + j) x) _ _ m]
  · simp only [bind_assoc, pure_bind]
  · intro k m _ hk
    refine forBody_scope (f := fun m => env.upd "whole_matrix" (.words64 m)) (fun _ => [("end", .usize (BitVec.ofNat 64 (8 * k + 8))),
      ("start", .usize (BitVec.ofNat 64 (8 * k))), ("j", .usize (BitVec.ofNat 64 k))]) (fun _ => by rw [Env.length_upd, Env.length_upd]) ?_
    have hm1 : Has (env.upd "whole_matrix" (.words64 m)) "whole_matrix" (.words64 m) := hm.upd_self _
    have hm2 : Env.get "whole_matrix" (env.upd "whole_matrix" (.words64 m)) = pure (.words64 m) := hm1
    have hx' : Env.get x (env.upd "whole_matrix" (.words64 m)) = pure (.bytes bytes) := hx.upd_ne hx4 _
    have hp' : Env.get "ptr_byte" (env.upd "whole_matrix" (.words64 m)) = pure (.usize (BitVec.ofNat 64 at_)) := hp.upd_ne (by decide) _
    have hk1 : (BitVec.ofNat 64 k).toNat = k := by simp; omega
    have hk2 : (BitVec.ofNat 64 (8 * k)).toNat = 8 * k := by simp; omega
    have hk3 : (BitVec.ofNat 64 (8 * k + 8)).toNat = 8 * k + 8 := by simp; omega
    have hk4 : (BitVec.ofNat 64 at_).toNat = at_ := by simp; omega
    have hk5 : (BitVec.ofNat 64 (at_ + k)).toNat = at_ + k := by simp; omega
    have h8 : (8#64).toNat = 8 := rfl
    have e1 : binOp u p .mul (.usize 8#64) (.usize (BitVec.ofNat 64 k)) = pure (.usize (BitVec.ofNat 64 (8 * k))) := by
      rw [mul_usize_lt (by rw [hk1, h8]; omega), hk1, h8]
    have e2 : usizeAdd u p (8 * k) 8 = pure (8 * k + 8) := usizeAdd_lt (by omega)
    have e3 : usizeAdd u p at_ k = pure (at_ + k) := usizeAdd_lt (by omega)
    run_src [wordsBody, hx1, hx2, hx3, hm2, hx', hp', hc.width, hc.prof, hk1, hk2, hk3, hk4, hk5, h8, e1, e2, e3, part, hc.isRead, hm1.set, Env.upd_upd]

/-! ## The variables of the main function -/

/-- What stays the same once the input has been written. -/
structure Frame where
  k : U64
  pwd : List U8
  salt : List U8
  time_cost : U64
  n_rows : U64
  n_cols : U64
  rl : I64
  total : I64
  blocks : I64

variable (F : Frame)

/-- The variables before the matrix exists. -/
def Frame.outer (v : SetupVars) : Env :=
  [("gap", .i64 v.gap), ("window", .i64 v.window), ("step", .i64 v.step), ("_tau", .i64 1), ("rowa", .i64 v.rowa), ("prev", .i64 v.prev),
    ("row", .i64 v.row), ("k", .u64 F.k), ("pwd", .bytes F.pwd), ("salt", .bytes F.salt), ("time_cost", .u64 F.time_cost),
    ("n_rows", .u64 F.n_rows), ("n_cols", .u64 F.n_cols)]

/-- The variables while the input is written. -/
def Frame.input (ptr_byte : BitVec 64) (m : Matrix) (v : SetupVars) : Env :=
  [("ptr_byte", .usize ptr_byte), ("n_blocks_input", .i64 F.blocks), ("whole_matrix", .words64 m), ("_i", .i64 F.total),
    ("row_len_int64", .i64 F.rl), ("_i", .i64 0)] ++ F.outer v

/-- The statements before the matrix is allocated. -/
def prelude : List Stmt :=
  [.ifElse (.bin .lt (.var "time_cost") (.lit 1)) [.panic] [],
    .ifElse (.bin .lt (.var "n_rows") (.lit 3)) [.panic] [],
    .letVar "row" (some (.int .i64)) (.lit 2),
    .letVar "prev" (some (.int .i64)) (.lit 1),
    .letVar "rowa" (some (.int .i64)) (.lit 0),
    .letVar "_tau" (some (.int .i64)) (.lit 1),
    .letVar "step" (some (.int .i64)) (.lit 1),
    .letVar "window" (some (.int .i64)) (.lit 2),
    .letVar "gap" (some (.int .i64)) (.lit 1), .letVar "_i" (some (.int .i64)) (.lit 0)]

theorem exec_prelude (rest : List Stmt) :
    execBlock c (prelude ++ rest) [("k", .u64 F.k), ("pwd", .bytes F.pwd), ("salt", .bytes F.salt), ("time_cost", .u64 F.time_cost),
      ("n_rows", .u64 F.n_rows), ("n_cols", .u64 F.n_cols)] =
    (do
      if F.time_cost.toNat < 1 then throw .explicit
      if F.n_rows.toNat < 3 then throw .explicit
      execBlock c rest (("_i", .i64 0) :: F.outer SetupVars.start)) := by
  have h1 : (1#64).toNat = 1 := rfl
  have h3 : (3#64).toNat = 3 := rfl
  by_cases ht : F.time_cost.toNat < 1
  · run_src [prelude, h1, ht, decide_true]
    rfl
  · by_cases hr : F.n_rows.toNat < 3
    · run_src [prelude, h1, ht, decide_false, h3, hr, decide_true, List.length_cons, List.length_nil, List.drop_zero]
      rfl
    · run_src [prelude, h1, ht, decide_false, h3, hr, List.length_cons, List.length_nil, List.drop_zero]
      rfl

/-- The statements that allocate the matrix. -/
def allocStmts (N : Names) : List Stmt :=
  [.letVar "row_len_int64" (some (.int .i64)) (.bin .mul (.const N.blk) (.cast (.var "n_cols") .i64)),
    .letVar "_i" (some (.int .i64)) (.bin .mul (.cast (.var "n_rows") .i64) (.var "row_len_int64")),
    .letVar "whole_matrix" (some (.vec .u64)) (.vecOf (.lit 0) (.cast (.var "_i") .usize)),
    .mutate (.var "whole_matrix") "resize" [.cast (.var "_i") .usize, .lit 0]]

theorem exec_alloc (hc : MainCtx c u p N) (rest : List Stmt) (v : SetupVars) :
    execBlock c (allocStmts N ++ rest) (("_i", .i64 0) :: F.outer v) =
      (imul p BLOCKLENINT64 F.n_cols >>= fun rl => imul p F.n_rows rl >>= fun i => vecOf u 8 (0 : U64) (usz u i) >>= fun m =>
        execBlock c rest (("whole_matrix", .words64 m) :: ("_i", .i64 i) :: ("row_len_int64", .i64 rl) :: ("_i", .i64 0) :: F.outer v)) := by
  run_src [allocStmts, Frame.outer, hc.isBlk, hc.width, hc.prof, repeated_u64, exec_mutate]
  refine bind_congr fun rl => ?_
  refine bind_congr fun i => ?_
  refine bind_congr_pure fun m hm => ?_
  have hs : m.size = usz u i ∧ 8 * m.size ≤ isizeMax u := by
    unfold vecOf at hm
    split at hm
    · rename_i h
      rw [← Res.pure_inj hm]; simp [h]
    · exact (Res.pure_ne_throw hm.symm).elim
  rw [resize_same m (low u i) (by rw [low_toNat]; exact hs.1) hs.2]
  run_src

/-- The statements that count the blocks of the input. -/
def blocksStmts (N : Names) : List Stmt :=
  [.letVar "n_blocks_input" (some (.int .i64)) (.bin .add (.bin .div (.cast (.bin .add (.bin .add (.method (.var "salt") "len" [])
      (.method (.var "pwd") "len" [])) (.bin .mul (.lit 6) (.lit 8))) .i64) (.const N.safeBytes)) (.lit 1)),
    .letVar "ptr_byte" (some (.int .usize)) (.lit 0)]

theorem exec_blocks (hc : MainCtx c u p N) (hp : F.pwd.length ≤ isizeMax u) (hs : F.salt.length ≤ isizeMax u) (rest : List Stmt)
    (e : Env) (he1 : Has e "salt" (.bytes F.salt)) (he2 : Has e "pwd" (.bytes F.pwd)) :
    execBlock c (blocksStmts N ++ rest) e =
      (nBlocksInput u p F.pwd.length F.salt.length >>= fun n =>
        execBlock c rest (("ptr_byte", .usize 0) :: ("n_blocks_input", .i64 n) :: e)) := by
  unfold Has at he1 he2
  have hu1 := two_pow_32_le (u := u)
  have hu2 := two_pow_le_64 (u := u)
  have hu3 := two_maxBytes (u := u)
  have h1 : (BitVec.ofNat 64 F.pwd.length).toNat = F.pwd.length := by simp; omega
  have h2 : (BitVec.ofNat 64 F.salt.length).toNat = F.salt.length := by simp; omega
  have h48 : (48#64).toNat = 48 := rfl
  have hpos : 0 < BLOCKLENBLAKE2SAFEBYTES.toInt := by decide
  have h3 : usizeAdd u p F.salt.length F.pwd.length = pure (F.salt.length + F.pwd.length) := usizeAdd_lt (by omega)
  have h4 : (BitVec.ofNat 64 (F.salt.length + F.pwd.length)).toNat = F.salt.length + F.pwd.length := by simp; omega
  run_src [blocksStmts, he1, he2, hc.width, hc.prof, hc.isSafeBytes, h1, h2, h3, h4, h48, hpos, nBlocksInput]
  refine bind_congr fun b => ?_
  rfl

/-- `whole_matrix[ptr_byte] = e`. -/
def setPtr (e : Expr) : Stmt := .assign (.index (.var "whole_matrix") (.var "ptr_byte")) e

/-- `ptr_byte += 1`. -/
def incPtr : Stmt := .assignOp .add (.var "ptr_byte") (.lit 1)

/-- `ptr_byte += (x.len() as u64 / 8) as usize`. -/
def lenPtr (x : String) : Stmt := .assignOp .add (.var "ptr_byte") (.cast (.bin .div (.cast (.method (.var x) "len" []) .u64) (.lit 8)) .usize)

theorem setItem_asInt (xs : Array U64) (i : Nat) (val : Val) (x : U64) (h : asInt .u64 val = pure (.u64 x)) :
    setItem (.words64 xs) i val = (vset xs i x >>= fun ys => pure (.words64 ys)) := by
  simp only [setItem, h, pure_bind]

variable {F}

theorem exec_setPtr {n : Nat} (hn : n < 2 ^ 64) {m : Matrix} {v : SetupVars} {e : Expr} {val : Val} {x : U64}
    (he : eval c (F.input (BitVec.ofNat 64 n) m v) none e = pure val) (hv : asInt .u64 val = pure (.u64 x)) :
    exec c (setPtr e) (F.input (BitVec.ofNat 64 n) m v) = (vset m n x >>= fun m' => pure (.next (F.input (BitVec.ofNat 64 n) m' v))) := by
  have h : (BitVec.ofNat 64 n).toNat = n := by simp; omega
  rw [setPtr, exec, he, pure_bind]
  have hpl : place c (F.input (BitVec.ofNat 64 n) m v) (.index (.var "whole_matrix") (.var "ptr_byte")) = pure ("whole_matrix", [.index n]) := by
    run_src [Frame.input, h]
  rw [hpl, pure_bind, writePlace_index (old := .words64 m) (by rfl), setItem_asInt m n val x hv]
  simp only [bind_assoc, pure_bind]
  rfl

theorem exec_incPtr (hu : c.u = u) {n : Nat} (hn : n + 1 < 2 ^ u) {m : Matrix} {v : SetupVars} :
    exec c incPtr (F.input (BitVec.ofNat 64 n) m v) = pure (.next (F.input (BitVec.ofNat 64 (n + 1)) m v)) := by
  have hu2 := two_pow_le_64 (u := u)
  have h : (BitVec.ofNat 64 n).toNat = n := by simp; omega
  have h1 : (1#64).toNat = 1 := rfl
  run_src [incPtr, hu, Frame.input, h, h1, usizeAdd_lt hn]

theorem exec_lenPtr (hu : c.u = u) {n : Nat} {x : String} {bytes : List U8} (hb : bytes.length ≤ isizeMax u) (hn : n ≤ isizeMax u) {m : Matrix} {v : SetupVars}
    (hx : Has (F.input (BitVec.ofNat 64 n) m v) x (.bytes bytes)) :
    exec c (lenPtr x) (F.input (BitVec.ofNat 64 n) m v) = pure (.next (F.input (BitVec.ofNat 64 (n + bytes.length / 8)) m v)) := by
  have hu1 := two_pow_32_le (u := u)
  have hu2 := two_pow_le_64 (u := u)
  have hu3 := two_maxBytes (u := u)
  have h : (BitVec.ofNat 64 n).toNat = n := by simp; omega
  have h1 : (BitVec.ofNat 64 bytes.length).toNat = bytes.length := by simp; omega
  have h2 : (BitVec.ofNat 64 (bytes.length / 8)).toNat = bytes.length / 8 := by simp; omega
  have he : eval c (F.input (BitVec.ofNat 64 n) m v) none (.cast (.bin .div (.cast (.method (.var x) "len" []) .u64) (.lit 8)) .usize) =
      pure (.usize (BitVec.ofNat 64 (bytes.length / 8))) := by
    unfold Has at hx
    run_src [hx, hu, div_u64_8]
    rw [h1, low_of_lt _ (by omega)]
  rw [lenPtr, exec, he]
  run_src [Frame.input, hu, h, h2, usizeAdd_lt (show n + bytes.length / 8 < 2 ^ u by omega)]

/-- The statements that write the input. -/
def inputStmts (N : Names) : List Stmt :=
  [wordsLoop "pwd", lenPtr "pwd", wordsLoop "salt", lenPtr "salt", setPtr (.var "k"), incPtr,
    setPtr (.cast (.method (.var "pwd") "len" []) .u64), incPtr, setPtr (.cast (.method (.var "salt") "len" []) .u64), incPtr,
    setPtr (.var "time_cost"), incPtr, setPtr (.var "n_rows"), incPtr, setPtr (.var "n_cols"), incPtr, setPtr (.lit 128),
    .assign (.var "ptr_byte") (.cast (.bin .sub (.bin .div (.bin .mul (.var "n_blocks_input") (.const N.safeBytes)) (.lit 8)) (.lit 1)) .usize),
    .assignOp .xor (.index (.var "whole_matrix") (.var "ptr_byte")) (.lit 72057594037927936)]

/-- Where `ptr_byte` points in the end. -/
def Frame.lastPtr (u : Nat) (F : Frame) : BitVec 64 := low u (idiv (F.blocks * BLOCKLENBLAKE2SAFEBYTES) 8 - 1)

theorem imul_pure {a b x : I64} (h : imul p a b = pure x) : x = a * b := by
  unfold imul at h
  split at h
  · exact (Res.pure_ne_throw h.symm).elim
  · exact (Res.pure_inj h).symm

theorem isub_pure {a b x : I64} (h : isub p a b = pure x) : x = a - b := by
  unfold isub at h
  split at h
  · exact (Res.pure_ne_throw h.symm).elim
  · exact (Res.pure_inj h).symm

theorem exec_input (hc : MainCtx c u p N) (hp : F.pwd.length ≤ isizeMax u) (hs : F.salt.length ≤ isizeMax u) (rest : List Stmt) (m : Matrix) (v : SetupVars) :
    execBlock c (inputStmts N ++ rest) (F.input 0 m v) =
      (writeInput u p F.k F.pwd F.salt F.time_cost F.n_rows F.n_cols F.blocks m >>= fun m' => execBlock c rest (F.input (F.lastPtr u) m' v)) := by
  have hu1 := two_pow_32_le (u := u)
  have hu2 := two_pow_le_64 (u := u)
  have hu3 := two_maxBytes (u := u)
  have hl : F.pwd.length / 8 ≤ isizeMax u := by omega
  unfold inputStmts
  simp only [List.cons_append, List.nil_append]
  rw [show (0 : BitVec 64) = BitVec.ofNat 64 0 from rfl]
  rw [execBlock_next (exec_words hc (x := "pwd") (bytes := F.pwd) (at_ := 0) (m := m) (by rfl) (by rfl) (by rfl) (by decide) (by decide) (by decide)
    (by decide) hp (by omega))]
  rw [writeInput, bind_assoc]
  refine bind_congr fun m => ?_
  rw [show Env.upd "whole_matrix" (.words64 m) (F.input (BitVec.ofNat 64 0) _ v) = F.input (BitVec.ofNat 64 0) m v from rfl]
  rw [execBlock_next_pure (exec_lenPtr hc.width (x := "pwd") (bytes := F.pwd) hp (by omega) (by rfl))]
  rw [execBlock_next (exec_words hc (x := "salt") (bytes := F.salt) (at_ := 0 + F.pwd.length / 8) (m := m) (by rfl) (by rfl) (by rfl) (by decide) (by decide) (by decide)
    (by decide) hs (by omega))]
  simp only [bind_assoc]
  refine bind_congr fun m => ?_
  rw [show Env.upd "whole_matrix" (.words64 m) (F.input (BitVec.ofNat 64 (0 + F.pwd.length / 8)) _ v) = F.input (BitVec.ofNat 64 (0 + F.pwd.length / 8)) m v from rfl]
  rw [execBlock_next_pure (exec_lenPtr hc.width (x := "salt") (bytes := F.salt) hs (by omega) (by rfl))]
  have hn : 0 + F.pwd.length / 8 + F.salt.length / 8 + 8 < 2 ^ u := by omega
  generalize 0 + F.pwd.length / 8 + F.salt.length / 8 = n at hn ⊢
  rw [execBlock_next (exec_setPtr (val := .u64 F.k) (by omega) (by rfl) (by rfl))]
  refine bind_congr fun m => ?_
  rw [execBlock_next_pure (exec_incPtr hc.width (by omega))]
  rw [execBlock_next (exec_setPtr (val := .u64 (BitVec.ofNat 64 F.pwd.length)) (by omega) (by run_src [Frame.input, Frame.outer, hc.width]) (by rfl))]
  refine bind_congr fun m => ?_
  rw [execBlock_next_pure (exec_incPtr hc.width (by omega))]
  rw [execBlock_next (exec_setPtr (val := .u64 (BitVec.ofNat 64 F.salt.length)) (by omega) (by run_src [Frame.input, Frame.outer, hc.width]) (by rfl))]
  refine bind_congr fun m => ?_
  rw [execBlock_next_pure (exec_incPtr hc.width (by omega))]
  rw [execBlock_next (exec_setPtr (val := .u64 F.time_cost) (by omega) (by rfl) (by rfl))]
  refine bind_congr fun m => ?_
  rw [execBlock_next_pure (exec_incPtr hc.width (by omega))]
  rw [execBlock_next (exec_setPtr (val := .u64 F.n_rows) (by omega) (by rfl) (by rfl))]
  refine bind_congr fun m => ?_
  rw [execBlock_next_pure (exec_incPtr hc.width (by omega))]
  rw [execBlock_next (exec_setPtr (val := .u64 F.n_cols) (by omega) (by rfl) (by rfl))]
  refine bind_congr fun m => ?_
  rw [execBlock_next_pure (exec_incPtr hc.width (by omega))]
  rw [execBlock_next (exec_setPtr (val := .lit 128) (x := 0x80) (by omega) (by rfl) (by rfl))]
  refine bind_congr fun m => ?_
  have h8 : (0 : Int) < (8#64).toInt := by decide
  run_src [Frame.input, Frame.outer, hc.width, hc.prof, hc.isSafeBytes, h8]
  refine bind_congr_pure fun a ha => ?_
  refine bind_congr_pure fun b hb => ?_
  have hab : low u b = F.lastPtr u := by
    rw [isub_pure hb, imul_pure ha]
    rfl
  rw [← low_toNat, hab]
  refine bind_congr fun x => ?_
  rfl

/-! ## Absorbing the input -/

/-- The body of the loop that absorbs the input. -/
def absorbBody (N : Names) : List Stmt :=
  [.letSnd "_right" (.method (.var "whole_matrix") "split_at" [.var "ptr_word"]),
    .assign (.var "state") (.call N.safe [.var "state", .method (.var "_right") "to_vec" []]),
    .assignOp .add (.var "ptr_word") (.cast (.const N.safe64) .usize)]

/-- The variables once the sponge exists. -/
def Frame.sponge (u : Nat) (F : Frame) (ptr_word : BitVec 64) (s : State) (m : Matrix) (v : SetupVars) : Env :=
  ("ptr_word", .usize ptr_word) :: ("state", .words64 s.toArray) :: F.input (F.lastPtr u) m v

/-- The loop that absorbs the input. -/
def absorbStmts (N : Names) : List Stmt :=
  [.letVar "state" none (.call N.init []), .letVar "ptr_word" (some (.int .usize)) (.lit 0),
    .forIn "_i" (.lit 0) (.var "n_blocks_input") false (absorbBody N)]

theorem exec_absorb (hc : MainCtx c u p N) (rest : List Stmt) (m : Matrix) (hm : 8 * m.size ≤ isizeMax u) (v : SetupVars) :
    execBlock c (absorbStmts N ++ rest) (F.input (F.lastPtr u) m v) =
      (forLoop 0 (irangeLen 0 F.blocks) (fun _ (r : State × Nat) => do
        let right ← splitRight m r.2
        let state ← absorb_block_blake2_safe r.1 right
        pure (state, r.2 + 8)) (init_state, 0) >>= fun r => execBlock c rest (F.sponge u (BitVec.ofNat 64 r.2) r.1 m v)) := by
  have hu1 := two_pow_32_le (u := u)
  have hu2 := two_pow_le_64 (u := u)
  have hu3 := two_maxBytes (u := u)
  have h1 : ∀ rest, execBlock c (.letVar "state" none (.call N.init []) :: .letVar "ptr_word" (some (.int .usize)) (.lit 0) :: rest) (F.input (F.lastPtr u) m v) =
      execBlock c rest (F.sponge u (BitVec.ofNat 64 0) init_state m v) := by
    intro rest
    run_src [hc.isInit, if_neg hc.initExt, Frame.sponge]
  unfold absorbStmts
  simp only [List.cons_append, List.nil_append]
  rw [h1]
  have h2 : exec c (.forIn "_i" (.lit 0) (.var "n_blocks_input") false (absorbBody N)) (F.sponge u (BitVec.ofNat 64 0) init_state m v) =
      (forLoop 0 (irangeLen 0 F.blocks) (fun _ (r : State × Nat) => do
        let right ← splitRight m r.2
        let state ← absorb_block_blake2_safe r.1 right
        pure (state, r.2 + 8)) (init_state, 0) >>= fun r => pure (.next (F.sponge u (BitVec.ofNat 64 r.2) r.1 m v))) := by
    rw [exec_for_i64 (n := F.blocks) "_i" _ (by rfl)]
    rw [forLoop_map_inv (fun r : State × Nat => F.sponge u (BitVec.ofNat 64 r.2) r.1 m v) (fun _ r => r.2 + 8 < 2 ^ u) 0 (irangeLen 0 F.blocks)
      (fun _ (r : State × Nat) => do
        let right ← splitRight m r.2
        let state ← absorb_block_blake2_safe r.1 right
        pure (state, r.2 + 8)) _ _ _ (init_state, 0) (by show 0 + 8 < 2 ^ u; omega)]
    · simp only [bind_assoc, pure_bind]
    · intro k r hr _ _
      have hr' : (BitVec.ofNat 64 r.2).toNat = r.2 := by simp; omega
      have h8 : usz u BLOCKLENBLAKE2SAFEINT64 = 8 := by
        show 8 % 2 ^ u = 8
        exact Nat.mod_eq_of_lt (by omega)
      have hadd : usizeAdd u p r.2 8 = pure (r.2 + 8) := usizeAdd_lt (by omega)
      refine (forBody_scope (m := splitRight m r.2 >>= fun right => absorb_block_blake2_safe r.1 right >>= fun s => pure (right, s))
        (f := fun q : Array U64 × State => F.sponge u (BitVec.ofNat 64 (r.2 + 8)) q.2 m v)
        (fun q => [("_right", .words64 q.1), ("_i", .i64 (BitVec.ofNat 64 k))]) (fun _ => rfl) ?_).trans ?_
      · run_src [absorbBody, Frame.sponge, Frame.input, split_words, hc.isSafe, if_neg hc.safeExt, hc.isSafe64, hc.width, hc.prof, hr', h8, hadd]
      · simp only [bind_assoc, pure_bind]
    · intro k r r' hr _ _ h
      obtain ⟨right, h1, h⟩ := bind_eq_pure h
      obtain ⟨s, h2, h⟩ := bind_eq_pure h
      rw [← Res.pure_inj h]
      unfold splitRight at h1
      split at h1
      · simp only; omega
      · exact (Res.pure_ne_throw h1.symm).elim
  exact execBlock_next h2

end Source

import Verif.Proofs.SrcEnv

/-! The loops over the columns of a row, as they stand in the source of `lyra2` and of `lyra2mod`. -/

set_option linter.unusedSectionVars false

namespace Source
open Rust hiding isizeMax usizeAdd vecOf
open Model.Lyra2 (State Matrix BLOCKLENINT64 reduced_blake2b_lyra)
open Model.Target

/-- What the bodies of the loops need from the rest of the crate: the number of words of a block and the permutation,
under the names that they have in the module. -/
structure LyraCtx (c : Ctx) (u : Nat) (p : Profile) (blk red : String) : Prop where
  width : c.u = u
  prof : c.p = p
  isBlk : c.call blk [] = pure (.i64 12)
  isRed : ∀ v : State, c.call red [.words64 v.toArray] = pure (.words64 (reduced_blake2b_lyra v).toArray)
  notExt : red ≠ "Vec::with_capacity"

/-- Looks up variables in environments that were changed or extended. -/
macro "has" : tactic => `(tactic| repeat' first
  | assumption
  | exact Has.head _ _ _
  | (refine Has.upd_self (v := ?_) ?_ _; rotate_left)
  | (refine Has.upd_ne ?_ (by decide) _)
  | (refine Has.cons ?_ (by decide) _))

variable {c : Ctx} {u : Nat} [Width u] {p : Profile} {blk red : String}

/-! ## The expressions -/

/-- `e + w`; the source leaves out `+ 0`. -/
def word (e : Expr) (w : Fin 12) : Expr := if w = 0 then e else .bin .add e (.lit w)

/-- `_i as i64 * BLOCKLENINT64`. -/
def colE (blk : String) : Expr := .bin .mul (.cast (.var "_i") .i64) (.const blk)

/-- `(n_cols - _i - 1) as i64 * BLOCKLENINT64`. -/
def revE (blk : String) : Expr :=
  .bin .mul (.cast (.bin .sub (.bin .sub (.var "n_cols") (.var "_i")) (.lit 1)) .i64) (.const blk)

/-- `e + r * row_len_int64`. -/
def inRow (e : Expr) (r : String) : Expr := .bin .add e (.bin .mul (.var r) (.var "row_len_int64"))

/-- `whole_matrix[e as usize]`. -/
def cellE (e : Expr) : Expr := .index (.var "whole_matrix") (.cast e .usize)

/-- `state[w]`. -/
def stateE (w : Nat) : Expr := .index (.var "state") (.lit w)

theorem iadd_zero (a : I64) : iadd p a 0 = pure a := by
  unfold iadd BitVec.saddOverflow
  have h1 := a.toInt_lt
  have h2 := a.le_toInt
  rw [if_neg, show a + 0 = a from BitVec.add_zero _]
  simp only [Bool.and_eq_true, Bool.or_eq_true, decide_eq_true_eq]
  rintro ⟨_, h⟩
  have : (0 : BitVec 64).toInt = 0 := rfl
  omega

theorem eval_word (hc : LyraCtx c u p blk red) {env : Env} {e : Expr} {m : Res I64}
    (h : eval c env none e = (m >>= fun a => pure (.i64 a))) (w : Fin 12) :
    eval c env none (word e w) = (m >>= fun a => iadd p a (BitVec.ofNat 64 w) >>= fun b => pure (.i64 b)) := by
  unfold word
  split
  · rename_i hw
    subst hw
    rw [h]
    congr 1
    funext a
    rw [show BitVec.ofNat 64 ((0 : Fin 12) : Nat) = 0 from rfl, iadd_zero, pure_bind]
  · have hw : (w : Nat) < 2 ^ 63 := by omega
    rw [eval, h, eval, bind_assoc]
    refine bind_congr fun a => ?_
    simp only [asTy, pure_bind, add_i64_lit w a hw, add_i64, hc.width, hc.prof, bind_assoc]

theorem eval_colE (hc : LyraCtx c u p blk red) {env : Env} {i : U64} (hi : Has env "_i" (.u64 i)) :
    eval c env none (colE blk) = (imul p i BLOCKLENINT64 >>= fun a => pure (.i64 a)) := by
  unfold Has at hi
  run_src [colE, hi, hc.isBlk, hc.width, hc.prof]
  rfl

theorem eval_revE (hc : LyraCtx c u p blk red) {env : Env} {i n_cols : U64} (hi : Has env "_i" (.u64 i)) (hn : Has env "n_cols" (.u64 n_cols)) :
    eval c env none (revE blk) = ((usub p n_cols i >>= fun a => usub p a 1 >>= fun a => imul p a BLOCKLENINT64) >>= fun a => pure (.i64 a)) := by
  unfold Has at hi hn
  run_src [revE, hi, hn, hc.isBlk, hc.width, hc.prof]
  rfl

theorem eval_inRow (hc : LyraCtx c u p blk red) {env : Env} {e : Expr} {m : Res I64} {r : String} {rv rl : I64}
    (h : eval c env none e = (m >>= fun a => pure (.i64 a))) (hr : Has env r (.i64 rv)) (hrl : Has env "row_len_int64" (.i64 rl)) :
    eval c env none (inRow e r) = ((m >>= fun a => imul p rv rl >>= fun b => iadd p a b) >>= fun a => pure (.i64 a)) := by
  unfold Has at hr hrl
  unfold inRow
  rw [eval, h]
  run_src [hr, hrl, hc.width, hc.prof]

/-- The value of `whole_matrix[e as usize]`. -/
theorem eval_cell (hu : c.u = u) {env : Env} {e : Expr} {n : Res I64} {m : Matrix}
    (h : eval c env none e = (n >>= fun a => pure (.i64 a))) (hm : Has env "whole_matrix" (.words64 m)) :
    eval c env none (cellE e) = ((n >>= fun a => pure (usz u a)) >>= fun j => vget m j >>= fun x => pure (.u64 x)) := by
  unfold Has at hm
  unfold cellE
  rw [eval, eval_var hm, eval, h]
  run_src [hu]

/-- The place `whole_matrix[e as usize]`. -/
theorem place_cell (hu : c.u = u) {env : Env} {e : Expr} {n : Res I64} (h : eval c env none e = (n >>= fun a => pure (.i64 a))) :
    place c env (cellE e) = ((n >>= fun a => pure (usz u a)) >>= fun j => pure ("whole_matrix", [.index j])) := by
  unfold cellE
  rw [place, place, eval, h]
  run_src [hu]

theorem eval_stateE {env : Env} {s : State} (hs : Has env "state" (.words64 s.toArray)) (w : Nat) (hw : w < 16) :
    eval c env none (stateE w) = pure (.u64 s[w]) := by
  unfold Has at hs
  run_src [stateE, hs, hw, position_lit w (by omega)]

/-- The index of a word of row 0. -/
theorem eval_idxRow0 (hc : LyraCtx c u p blk red) {env : Env} {i : U64} (hi : Has env "_i" (.u64 i)) (w : Fin 12) :
    eval c env none (word (colE blk) w) =
      ((imul p i BLOCKLENINT64 >>= fun a => iadd p a (BitVec.ofNat 64 w)) >>= fun a => pure (.i64 a)) := by
  rw [eval_word hc (eval_colE hc hi), bind_assoc]

/-- The index of a word of the row `r`. -/
theorem eval_idx (hc : LyraCtx c u p blk red) {env : Env} {i : U64} {r : String} {rv rl : I64} (hi : Has env "_i" (.u64 i)) (hr : Has env r (.i64 rv))
    (hrl : Has env "row_len_int64" (.i64 rl)) (w : Fin 12) :
    eval c env none (word (inRow (colE blk) r) w) =
      ((imul p i BLOCKLENINT64 >>= fun a => imul p rv rl >>= fun b => iadd p a b >>= fun a => iadd p a (BitVec.ofNat 64 w)) >>= fun a => pure (.i64 a)) := by
  rw [eval_word hc (eval_inRow hc (eval_colE hc hi) hr hrl)]
  simp only [bind_assoc]

/-- The index of a word of the row `r`, columns in reverse. -/
theorem eval_idxRev (hc : LyraCtx c u p blk red) {env : Env} {i n_cols : U64} {r : String} {rv rl : I64} (hi : Has env "_i" (.u64 i))
    (hn : Has env "n_cols" (.u64 n_cols)) (hr : Has env r (.i64 rv)) (hrl : Has env "row_len_int64" (.i64 rl)) (w : Fin 12) :
    eval c env none (word (inRow (revE blk) r) w) =
      ((usub p n_cols i >>= fun a => usub p a 1 >>= fun a => imul p a BLOCKLENINT64 >>= fun a => imul p rv rl >>= fun b =>
        iadd p a b >>= fun a => iadd p a (BitVec.ofNat 64 w)) >>= fun a => pure (.i64 a)) := by
  rw [eval_word hc (eval_inRow hc (eval_revE hc hi hn) hr hrl)]
  simp only [bind_assoc]

/-- The index of a word of row 1, columns in reverse. -/
theorem eval_idxRow1Rev (hc : LyraCtx c u p blk red) {env : Env} {i n_cols : U64} {rl : I64} (hi : Has env "_i" (.u64 i))
    (hn : Has env "n_cols" (.u64 n_cols)) (hrl : Has env "row_len_int64" (.i64 rl)) (w : Fin 12) :
    eval c env none (word (.bin .add (revE blk) (.var "row_len_int64")) w) =
      ((usub p n_cols i >>= fun a => usub p a 1 >>= fun a => imul p a BLOCKLENINT64 >>= fun a =>
        iadd p a rl >>= fun a => iadd p a (BitVec.ofNat 64 w)) >>= fun a => pure (.i64 a)) := by
  have h : eval c env none (.bin .add (revE blk) (.var "row_len_int64")) =
      ((usub p n_cols i >>= fun a => usub p a 1 >>= fun a => imul p a BLOCKLENINT64 >>= fun a => iadd p a rl) >>= fun a => pure (.i64 a)) := by
    unfold Has at hrl
    rw [eval, eval_revE hc hi hn]
    run_src [hrl, hc.width, hc.prof]
  rw [eval_word hc h]
  simp only [bind_assoc]

/-! ## The statements -/

/-- `state[w] ^= e`. -/
theorem exec_xorState {env : Env} {s : State} {e : Expr} {x : Res U64} (hs : Has env "state" (.words64 s.toArray))
    (h : eval c env none e = (x >>= fun x => pure (.u64 x))) (w : Fin 12) :
    exec c (.assignOp .xor (stateE w) e) env =
      ((x >>= fun x => pure (s.set w (s[w] ^^^ x))) >>= fun s' => pure (.next (env.upd "state" (.words64 s'.toArray)))) := by
  have hw : (w : Nat) < 16 := by omega
  rw [exec, h]
  simp only [bind_assoc, pure_bind]
  refine bind_congr fun x => ?_
  have h1 : place c env (stateE w) = pure ("state", [.index w]) := by
    run_src [stateE, position_lit w (by omega)]
  rw [h1]
  simp only [pure_bind, readPlace_index hs, item_words64, vget_vec s w hw, xor_u64, writePlace_index hs, setItem_words64, vset_vec s w _ hw]
  rfl

/-- `whole_matrix[e as usize] = v`. -/
theorem exec_setCell (hu : c.u = u) {env : Env} {e v : Expr} {n : Res I64} {x : Res U64} {m : Matrix}
    (hv : eval c env none v = (x >>= fun x => pure (.u64 x)))
    (h : eval c env none e = (n >>= fun a => pure (.i64 a))) (hm : Has env "whole_matrix" (.words64 m)) :
    exec c (.assign (cellE e) v) env =
      ((x >>= fun x => (n >>= fun a => pure (usz u a)) >>= fun j => vset m j x) >>= fun m' =>
        pure (.next (env.upd "whole_matrix" (.words64 m')))) := by
  rw [exec, hv, place_cell hu h]
  simp only [bind_assoc, pure_bind, writePlace_index hm, setItem_words64]

/-- `whole_matrix[e as usize] ^= state[w]`. -/
theorem exec_xorCell (hu : c.u = u) {env : Env} {e : Expr} {n : Res I64} {m : Matrix} {s : State}
    (h : eval c env none e = (n >>= fun a => pure (.i64 a))) (hm : Has env "whole_matrix" (.words64 m))
    (hs : Has env "state" (.words64 s.toArray)) (w : Nat) (hw : w < 16) :
    exec c (.assignOp .xor (cellE e) (stateE w)) env =
      (((n >>= fun a => pure (usz u a)) >>= fun j => vget m j >>= fun x => vset m j (x ^^^ s[w])) >>= fun m' =>
        pure (.next (env.upd "whole_matrix" (.words64 m')))) := by
  rw [exec, eval_stateE hs w hw, place_cell hu h]
  simp only [bind_assoc, pure_bind, readPlace_index hm, item_words64, xor_u64, writePlace_index hm, setItem_words64]

/-- `state = reduced_blake2b_lyra(state)`. -/
theorem exec_reduced (hc : LyraCtx c u p blk red) {env : Env} {s : State} (hs : Has env "state" (.words64 s.toArray)) :
    exec c (.assign (.var "state") (.call red [.var "state"])) env =
      pure (.next (env.upd "state" (.words64 (reduced_blake2b_lyra s).toArray))) := by
  have hs' := hs
  unfold Has at hs'
  rw [exec, eval]
  simp only [evalList, eval_var hs, pure_bind, if_neg hc.notExt, hc.isRed, place, writePlace_var hs, likeOld_words64]

/-- The twelve statements that absorb a sum. -/
def absorbStmt (blk : String) (w : Fin 12) : Stmt :=
  .assignOp .xor (stateE w) (.method (cellE (word (inRow (colE blk) "prev") w)) "wrapping_add" [cellE (word (inRow (colE blk) "rowa") w)])

/-- The twelve statements that write a new row. -/
def writeStmt (blk : String) (w : Fin 12) : Stmt :=
  .assign (cellE (word (inRow (revE blk) "row") w)) (.bin .xor (cellE (word (inRow (colE blk) "prev") w)) (stateE w))

/-- The twelve statements that update row*. -/
def rotStmt (blk : String) (w : Fin 12) : Stmt :=
  .assignOp .xor (cellE (word (inRow (colE blk) "rowa") w)) (stateE (((w : Nat) + 11) % 12))

/-- The twelve statements that update the row. -/
def rowStmt (blk : String) (w : Fin 12) : Stmt :=
  .assignOp .xor (cellE (word (inRow (colE blk) "row") w)) (stateE w)

/-- `state = reduced_blake2b_lyra(state)`. -/
def reducedStmt (red : String) : Stmt := .assign (.var "state") (.call red [.var "state"])

/-- The environment with other values of the state and of the matrix. -/
def put (e : Env) (s : State) (m : Matrix) : Env :=
  (e.upd "state" (.words64 s.toArray)).upd "whole_matrix" (.words64 m)

theorem put_length (e : Env) (s : State) (m : Matrix) : (put e s m).length = e.length := by
  unfold put
  rw [Env.length_upd, Env.length_upd]

theorem put_state (e : Env) (s s' : State) (m : Matrix) : (put e s m).upd "state" (.words64 s'.toArray) = put e s' m := by
  unfold put
  rw [Env.upd_comm (by decide), Env.upd_upd]

theorem put_matrix (e : Env) (s : State) (m m' : Matrix) : (put e s m).upd "whole_matrix" (.words64 m') = put e s m' := by
  unfold put
  rw [Env.upd_upd]

theorem put_cons (x : String) (v : Val) (e : Env) (s : State) (m : Matrix) (h1 : "state" ≠ x) (h2 : "whole_matrix" ≠ x) :
    put ((x, v) :: e) s m = (x, v) :: put e s m := by
  unfold put
  rw [Env.upd_cons h1, Env.upd_cons h2]

theorem put_put (e : Env) (s s' : State) (m m' : Matrix) : put (put e s m) s' m' = put e s' m' := by
  rw [put, put_state, put_matrix]

/-- An environment that has the state and the matrix. -/
structure Shaped (e : Env) : Prop where
  state : ∃ v, Has e "state" v
  matrix : ∃ v, Has e "whole_matrix" v

theorem Shaped.has_state {e : Env} (h : Shaped e) (s : State) (m : Matrix) : Has (put e s m) "state" (.words64 s.toArray) := by
  obtain ⟨v, hv⟩ := h.state
  exact (hv.upd_self _).upd_ne (by decide) _

theorem Shaped.has_matrix {e : Env} (h : Shaped e) (s : State) (m : Matrix) : Has (put e s m) "whole_matrix" (.words64 m) := by
  obtain ⟨v, hv⟩ := h.matrix
  exact (hv.upd_ne (by decide) _).upd_self _

theorem Has.put {e : Env} {x : String} {v : Val} (h : Has e x v) (h1 : x ≠ "state") (h2 : x ≠ "whole_matrix") (s : State) (m : Matrix) :
    Has (put e s m) x v := (h.upd_ne h1 _).upd_ne h2 _

theorem Shaped.put {e : Env} (h : Shaped e) (s : State) (m : Matrix) : Shaped (put e s m) :=
  ⟨⟨_, h.has_state s m⟩, ⟨_, h.has_matrix s m⟩⟩

theorem Shaped.cons {e : Env} (h : Shaped e) {x : String} (h1 : "state" ≠ x) (h2 : "whole_matrix" ≠ x) (v : Val) : Shaped ((x, v) :: e) := by
  obtain ⟨⟨a, ha⟩, ⟨b, hb⟩⟩ := h
  exact ⟨⟨a, ha.cons h1 v⟩, ⟨b, hb.cons h2 v⟩⟩

/-- The variables that the loops over the columns read. -/
structure Reads (e : Env) (n_cols : U64) (rl prev rowa row : I64) : Prop where
  shaped : Shaped e
  n_cols : Has e "n_cols" (.u64 n_cols)
  rl : Has e "row_len_int64" (.i64 rl)
  prev : Has e "prev" (.i64 prev)
  rowa : Has e "rowa" (.i64 rowa)
  row : Has e "row" (.i64 row)

variable {e : Env} {n_cols : U64} {rl prev rowa row : I64}

/-- Absorbing `M[prev] [+] M[row*]`. -/
theorem block_absorb (hc : LyraCtx c u p blk red) (h : Reads e n_cols rl prev rowa row) {i : U64} (hi : Has e "_i" (.u64 i)) (rest : List Stmt) (s : State) (m : Matrix) :
    execBlock c ((List.finRange 12).map (absorbStmt blk) ++ rest) (put e s m) =
      (absorbSum u p rl i prev rowa m s >>= fun s' => execBlock c rest (put e s' m)) := by
  refine execBlock_unroll (absorbStmt blk) _ (fun s => put e s m) ?_ rest s
  intro w s
  have hi' := hi.put (by decide) (by decide) s m
  have hrl' := h.rl.put (by decide) (by decide) s m
  have hm := h.shaped.has_matrix s m
  have e1 := eval_cell hc.width (eval_idx hc hi' (h.prev.put (by decide) (by decide) s m) hrl' w) hm
  have e2 := eval_cell hc.width (eval_idx hc hi' (h.rowa.put (by decide) (by decide) s m) hrl' w) hm
  unfold absorbStmt
  rw [exec_xorState (x := idx u p rl i prev w >>= fun j => vget m j >>= fun x => idx u p rl i rowa w >>= fun j => vget m j >>= fun y => pure (x + y)) (h.shaped.has_state s m)]
  · simp only [put_state, bind_assoc, pure_bind]
  · rw [eval]
    simp only [evalList, e1, e2, bind_assoc, pure_bind, wrapping_add_u64, idx]

/-- `M[row][C-1-col] = M[prev][col] ^ rand`. -/
theorem block_write (hc : LyraCtx c u p blk red) (h : Reads e n_cols rl prev rowa row) {i : U64} (hi : Has e "_i" (.u64 i)) (rest : List Stmt) (s : State) (m : Matrix) :
    execBlock c ((List.finRange 12).map (writeStmt blk) ++ rest) (put e s m) =
      (unroll12 (fun w m => do
        let x ← vget m (← idx u p rl i prev w)
        vset m (← idxRev u p n_cols rl i row w) (x ^^^ s[w])) m >>= fun m' => execBlock c rest (put e s m')) := by
  refine execBlock_unroll (writeStmt blk) _ (fun m => put e s m) ?_ rest m
  intro w m
  have hi' := hi.put (by decide) (by decide) s m
  have hrl' := h.rl.put (by decide) (by decide) s m
  have hm := h.shaped.has_matrix s m
  have e1 := eval_cell hc.width (eval_idx hc hi' (h.prev.put (by decide) (by decide) s m) hrl' w) hm
  have e2 := eval_idxRev hc hi' (h.n_cols.put (by decide) (by decide) s m) (h.row.put (by decide) (by decide) s m) hrl' w
  have e3 := eval_stateE (c := c) (h.shaped.has_state s m) w (by omega)
  unfold writeStmt
  rw [exec_setCell hc.width (x := idx u p rl i prev w >>= fun j => vget m j >>= fun x => pure (x ^^^ s[w])) ?_ e2 hm]
  · simp only [put_matrix, bind_assoc, pure_bind, idxRev]
  · rw [eval]
    simp only [e1, e3, bind_assoc, pure_bind, xor_u64, idx, asTy]
    rfl

/-- `M[row*][col] ^= rotW(rand)`. -/
theorem block_rot (hc : LyraCtx c u p blk red) (h : Reads e n_cols rl prev rowa row) {i : U64} (hi : Has e "_i" (.u64 i)) (rest : List Stmt) (s : State) (m : Matrix) :
    execBlock c ((List.finRange 12).map (rotStmt blk) ++ rest) (put e s m) =
      (xorRotW u p rl i rowa s m >>= fun m' => execBlock c rest (put e s m')) := by
  refine execBlock_unroll (rotStmt blk) _ (fun m => put e s m) ?_ rest m
  intro w m
  have hi' := hi.put (by decide) (by decide) s m
  have hrl' := h.rl.put (by decide) (by decide) s m
  unfold rotStmt
  rw [exec_xorCell hc.width (eval_idx hc hi' (h.rowa.put (by decide) (by decide) s m) hrl' w) (h.shaped.has_matrix s m) (h.shaped.has_state s m) _ (by omega)]
  simp only [put_matrix, bind_assoc, pure_bind, idx]

/-- `M[row][col] ^= rand`. -/
theorem block_row (hc : LyraCtx c u p blk red) (h : Reads e n_cols rl prev rowa row) {i : U64} (hi : Has e "_i" (.u64 i)) (rest : List Stmt) (s : State) (m : Matrix) :
    execBlock c ((List.finRange 12).map (rowStmt blk) ++ rest) (put e s m) =
      (unroll12 (fun w m => do
        let j ← idx u p rl i row w
        let x ← vget m j
        vset m j (x ^^^ s[w])) m >>= fun m' => execBlock c rest (put e s m')) := by
  refine execBlock_unroll (rowStmt blk) _ (fun m => put e s m) ?_ rest m
  intro w m
  have hi' := hi.put (by decide) (by decide) s m
  have hrl' := h.rl.put (by decide) (by decide) s m
  unfold rowStmt
  rw [exec_xorCell hc.width (eval_idx hc hi' (h.row.put (by decide) (by decide) s m) hrl' w) (h.shaped.has_matrix s m) (h.shaped.has_state s m) _ (by omega)]
  simp only [put_matrix, bind_assoc, pure_bind, idx]
  rfl

theorem block_reduced (hc : LyraCtx c u p blk red) (h : Shaped e) (rest : List Stmt) (s : State) (m : Matrix) :
    execBlock c (reducedStmt red :: rest) (put e s m) = execBlock c rest (put e (reduced_blake2b_lyra s) m) := by
  rw [reducedStmt, execBlock_next_pure (exec_reduced hc (h.has_state s m)), put_state]

/-! ## The loops -/

/-- The body of the loop over the columns of a row that is set up. -/
def setupCols (blk red : String) : List Stmt :=
  (List.finRange 12).map (absorbStmt blk) ++ (reducedStmt red :: ((List.finRange 12).map (writeStmt blk) ++ ((List.finRange 12).map (rotStmt blk) ++ [])))

/-- The body of the loop over the columns of a row that is revisited. -/
def wanderCols (blk red : String) : List Stmt :=
  (List.finRange 12).map (absorbStmt blk) ++ (reducedStmt red :: ((List.finRange 12).map (rowStmt blk) ++ ((List.finRange 12).map (rotStmt blk) ++ [])))

theorem Reads.cons (h : Reads e n_cols rl prev rowa row) (v : Val) : Reads (("_i", v) :: e) n_cols rl prev rowa row :=
  ⟨h.shaped.cons (by decide) (by decide) v, h.n_cols.cons (by decide) v, h.rl.cons (by decide) v, h.prev.cons (by decide) v,
    h.rowa.cons (by decide) v, h.row.cons (by decide) v⟩

/-- A loop over the columns. -/
theorem exec_cols (hn : Has e "n_cols" (.u64 n_cols)) (body : List Stmt) (f : U64 → State → Matrix → Res (State × Matrix))
    (hb : ∀ i s m, execBlock c body (("_i", .u64 i) :: put e s m) = (f i s m >>= fun r => pure (.next (("_i", .u64 i) :: put e r.1 r.2)))) (s : State) (m : Matrix) :
    exec c (.forIn "_i" (.lit 0) (.var "n_cols") false body) (put e s m) =
      (forLoop 0 n_cols.toNat (fun i (r : State × Matrix) => f (BitVec.ofNat 64 i) r.1 r.2) (s, m) >>= fun r => pure (.next (put e r.1 r.2))) := by
  rw [exec_for_u64 "_i" body (hn.put (by decide) (by decide) s m)]
  rw [forLoop_map (fun r : State × Matrix => put e r.1 r.2) 0 n_cols.toNat (fun i (r : State × Matrix) => f (BitVec.ofNat 64 i) r.1 r.2) _ _ (s, m)]
  · simp only [bind_assoc, pure_bind]
  · intro k r _ _
    refine forBody_next (f := fun r : State × Matrix => put e r.1 r.2) (fun r' => ?_) (hb _ _ _)
    rw [put_length, put_length]

theorem exec_setupCols (hc : LyraCtx c u p blk red) (h : Reads e n_cols rl prev rowa row) (s : State) (m : Matrix) :
    exec c (.forIn "_i" (.lit 0) (.var "n_cols") false (setupCols blk red)) (put e s m) =
      (duplexRowSetup u p n_cols rl prev rowa row s m >>= fun r => pure (.next (put e r.1 r.2))) := by
  refine exec_cols h.n_cols _ (fun i state m => do
    let state ← absorbSum u p rl i prev rowa m state
    let state := reduced_blake2b_lyra state
    let m ← unroll12 (fun w m => do
      let x ← vget m (← idx u p rl i prev w)
      vset m (← idxRev u p n_cols rl i row w) (x ^^^ state[w])) m
    let m ← xorRotW u p rl i rowa state m
    pure (state, m)) ?_ s m
  intro i s m
  have h' := h.cons (.u64 i)
  have hi := Has.head "_i" (.u64 i) e
  rw [← put_cons _ _ _ _ _ (by decide) (by decide), setupCols, block_absorb hc h' hi]
  simp only [block_reduced hc h'.shaped, block_write hc h' hi, block_rot hc h' hi, bind_assoc, pure_bind, execBlock]
  simp only [put_cons _ _ _ _ _ (show "state" ≠ "_i" by decide) (show "whole_matrix" ≠ "_i" by decide)]

theorem exec_wanderCols (hc : LyraCtx c u p blk red) (h : Reads e n_cols rl prev rowa row) (s : State) (m : Matrix) :
    exec c (.forIn "_i" (.lit 0) (.var "n_cols") false (wanderCols blk red)) (put e s m) =
      (duplexRow u p n_cols rl prev rowa row s m >>= fun r => pure (.next (put e r.1 r.2))) := by
  refine exec_cols h.n_cols _ (fun i state m => do
    let state ← absorbSum u p rl i prev rowa m state
    let state := reduced_blake2b_lyra state
    let m ← unroll12 (fun w m => do
      let j ← idx u p rl i row w
      let x ← vget m j
      vset m j (x ^^^ state[w])) m
    let m ← xorRotW u p rl i rowa state m
    pure (state, m)) ?_ s m
  intro i s m
  have h' := h.cons (.u64 i)
  have hi := Has.head "_i" (.u64 i) e
  rw [← put_cons _ _ _ _ _ (by decide) (by decide), wanderCols, block_absorb hc h' hi]
  simp only [block_reduced hc h'.shaped, block_row hc h' hi, block_rot hc h' hi, bind_assoc, pure_bind, execBlock]
  simp only [put_cons _ _ _ _ _ (show "state" ≠ "_i" by decide) (show "whole_matrix" ≠ "_i" by decide)]

/-! ## Row 1 -/

/-- The body of the loop over the columns of row 1. -/
def row1Cols (blk red : String) : List Stmt :=
  (List.finRange 12).map (fun w => .assignOp .xor (stateE w) (cellE (word (colE blk) w))) ++ (reducedStmt red ::
    ((List.finRange 12).map (fun w => .assign (cellE (word (.bin .add (revE blk) (.var "row_len_int64")) w)) (.bin .xor (cellE (word (colE blk) w)) (stateE w))) ++ []))

theorem exec_row1Cols (hc : LyraCtx c u p blk red) (hsh : Shaped e) (hn : Has e "n_cols" (.u64 n_cols)) (hrl : Has e "row_len_int64" (.i64 rl)) (s : State) (m : Matrix) :
    exec c (.forIn "_i" (.lit 0) (.var "n_cols") false (row1Cols blk red)) (put e s m) =
      (duplexRow1 u p n_cols rl s m >>= fun r => pure (.next (put e r.1 r.2))) := by
  refine exec_cols hn _ (fun i state m => do
    let state ← unroll12 (fun w (state : State) => do
      let x ← vget m (← idxRow0 u p i w)
      pure (state.set w (state[w] ^^^ x))) state
    let state := reduced_blake2b_lyra state
    let m ← unroll12 (fun w m => do
      let x ← vget m (← idxRow0 u p i w)
      vset m (← idxRow1Rev u p n_cols rl i w) (x ^^^ state[w])) m
    pure (state, m)) ?_ s m
  intro i s m
  have hsh' := hsh.cons (x := "_i") (by decide) (by decide) (.u64 i)
  have hi := Has.head "_i" (.u64 i) e
  have hn' := hn.cons (y := "_i") (by decide) (.u64 i)
  have hrl' := hrl.cons (y := "_i") (by decide) (.u64 i)
  rw [← put_cons _ _ _ _ _ (by decide) (by decide), row1Cols]
  rw [execBlock_unroll (fun w => .assignOp .xor (stateE w) (cellE (word (colE blk) w))) (fun w (state : State) => do
      let x ← vget m (← idxRow0 u p i w)
      pure (state.set w (state[w] ^^^ x))) (fun s => put (("_i", .u64 i) :: e) s m)]
  · simp only [block_reduced hc hsh', bind_assoc]
    congr 1
    funext s
    rw [execBlock_unroll _ (fun w m => do
      let x ← vget m (← idxRow0 u p i w)
      vset m (← idxRow1Rev u p n_cols rl i w) (x ^^^ (reduced_blake2b_lyra s)[w])) (fun m => put (("_i", .u64 i) :: e) (reduced_blake2b_lyra s) m)]
    · simp only [execBlock, pure_bind, put_cons _ _ _ _ _ (show "state" ≠ "_i" by decide) (show "whole_matrix" ≠ "_i" by decide)]
    · intro w m
      generalize reduced_blake2b_lyra s = s
      have hi' := hi.put (by decide) (by decide) s m
      have hm := hsh'.has_matrix s m
      have e1 := eval_cell hc.width (eval_idxRow0 hc hi' w) hm
      have e3 := eval_stateE (c := c) (hsh'.has_state s m) w (by omega)
      rw [exec_setCell hc.width (x := idxRow0 u p i w >>= fun j => vget m j >>= fun x => pure (x ^^^ s[w])) ?_
        (eval_idxRow1Rev hc hi' (hn'.put (by decide) (by decide) s m) (hrl'.put (by decide) (by decide) s m) w) hm]
      · simp only [put_matrix, bind_assoc, pure_bind, idxRow1Rev]
      · rw [eval]
        simp only [e1, e3, bind_assoc, pure_bind, xor_u64, idxRow0, asTy]
        rfl
  · intro w s
    rw [exec_xorState (x := idxRow0 u p i w >>= fun j => vget m j) (hsh'.has_state s m)]
    · simp only [put_state, bind_assoc, pure_bind]
    · rw [eval_cell hc.width (eval_idxRow0 hc (hi.put (by decide) (by decide) s m) w) (hsh'.has_matrix s m)]
      simp only [bind_assoc, pure_bind, idxRow0]

/-! ## The blocks of the source -/

theorem lyra2_block6 : lyra2.lyra2.block6 = setupCols "lyra2::BLOCKLENINT64" "lyra2::reduced_blake2b_lyra" := by rfl
theorem lyra2_block8 : lyra2.lyra2.block8 = wanderCols "lyra2::BLOCKLENINT64" "lyra2::reduced_blake2b_lyra" := by rfl
theorem lyra2_block5 : lyra2.lyra2.block5 = row1Cols "lyra2::BLOCKLENINT64" "lyra2::reduced_blake2b_lyra" := by rfl

end Source

import Verif.Proofs.SrcMain

/-! The setup phase, the wandering phase and the wrap-up of `lyra2`, as they stand in the source. -/

set_option linter.unusedSectionVars false

namespace Source
open Rust hiding isizeMax usizeAdd vecOf
open Model.Lyra2 (State Matrix SetupVars WanderVars BLOCKLENINT64 BLOCKLENBYTES BLOCKLENBLAKE2SAFEINT64 BLOCKLENBLAKE2SAFEBYTES BLAKE2BIV
  rotr64 round_lyra blake2b_lyra reduced_blake2b_lyra absorb_block_blake2_safe absorb_block init_state absorbInput wanderStep)
open Model.Target hiding lyra2 lyra2rev2 lyra2rev3 lyra2re lyra2z lyra2mod sum
open Model.Utils

variable {c : Ctx} {u : Nat} [Width u] {p : Profile} {N : Names} {F : Frame}

/-- Runs statements, then evaluates the result of the function. -/
def finish (c : Ctx) (ss : List Stmt) (result : Expr) (env : Env) : Res Val := do
  match (← execBlock c ss env) with
  | .next env => eval c env (some (.vec .u8)) result
  | .brk _ => stuck

theorem finish_of {σ : Type} {ss rest : List Stmt} {env : Env} {m : Res σ} {f : σ → Env} {result : Expr}
    (h : execBlock c ss env = (m >>= fun a => execBlock c rest (f a))) :
    finish c ss result env = (m >>= fun a => finish c rest result (f a)) := by
  unfold finish
  rw [h, bind_assoc]

theorem sponge_length (pw : BitVec 64) (s : State) (m : Matrix) (v : SetupVars) : (F.sponge u pw s m v).length = 21 := rfl

theorem put_sponge (pw : BitVec 64) (s s' : State) (m m' : Matrix) (v : SetupVars) : put (F.sponge u pw s m v) s' m' = F.sponge u pw s' m' v := rfl

/-! ## Row 0 -/

/-- The body of the loop over the columns of row 0. -/
def row0Cols (blk red : String) : List Stmt :=
  (List.finRange 12).map (fun w => .assign (cellE (word (.var "ptr") w)) (stateE w)) ++
    [.assign (.var "ptr") (.method (.var "ptr") "wrapping_sub" [.const blk]), reducedStmt red]

theorem exec_row0Cols {blk red : String} (hc : LyraCtx c u p blk red) {e : Env} (hsh : Shaped e) (i : U64) (ptr : I64) (s : State) (m : Matrix) :
    execBlock c (row0Cols blk red) (("_i", .u64 i) :: ("ptr", .i64 ptr) :: put e s m) =
      (unroll12 (fun w m => do
        let i ← iadd p ptr (BitVec.ofNat 64 w)
        vset m (usz u i) s[w]) m >>= fun m' =>
          pure (.next (("_i", .u64 i) :: ("ptr", .i64 (ptr - BLOCKLENINT64)) :: put e (reduced_blake2b_lyra s) m'))) := by
  unfold row0Cols
  rw [execBlock_unroll _ (fun w m => do
        let i ← iadd p ptr (BitVec.ofNat 64 w)
        vset m (usz u i) s[w]) (fun m => ("_i", .u64 i) :: ("ptr", .i64 ptr) :: put e s m)]
  · refine bind_congr fun m => ?_
    have hs := hsh.has_state s m
    have hs' : Env.get "state" (put e s m) = pure (.words64 s.toArray) := hs
    run_src [reducedStmt, hc.isBlk, hs', hs.set, if_neg hc.notExt, hc.isRed, put_state]
    rfl
  · intro w m
    have hptr : eval c (("_i", .u64 i) :: ("ptr", .i64 ptr) :: put e s m) none (.var "ptr") = ((pure ptr : Res I64) >>= fun a => pure (.i64 a)) := by
      run_src
    have hst : Has (("_i", .u64 i) :: ("ptr", .i64 ptr) :: put e s m) "state" (.words64 s.toArray) :=
      ((hsh.has_state s m).cons (by decide) _).cons (by decide) _
    have hma : Has (("_i", .u64 i) :: ("ptr", .i64 ptr) :: put e s m) "whole_matrix" (.words64 m) :=
      ((hsh.has_matrix s m).cons (by decide) _).cons (by decide) _
    have hv : eval c (("_i", .u64 i) :: ("ptr", .i64 ptr) :: put e s m) none (stateE w) = ((pure s[w] : Res U64) >>= fun x => pure (.u64 x)) := by
      rw [eval_stateE hst w (by omega), pure_bind]
      rfl
    have he := eval_word hc hptr w
    rw [pure_bind] at he
    rw [exec_setCell hc.width hv he hma]
    simp only [pure_bind, bind_assoc]
    refine bind_congr fun j => ?_
    refine bind_congr fun m' => ?_
    rw [Env.upd_cons (by decide), Env.upd_cons (by decide), put_matrix]

/-- The statements that fill row 0. -/
def row0Stmts (N : Names) : List Stmt :=
  [.letVar "ptr" none (.bin .mul (.bin .sub (.cast (.var "n_cols") .i64) (.lit 1)) (.const N.blk)),
    .forIn "_i" (.lit 0) (.var "n_cols") false (row0Cols N.blk N.red)]

theorem exec_row0 (hc : MainCtx c u p N) (rest : List Stmt) (pw : BitVec 64) (s : State) (m : Matrix) (v : SetupVars) :
    execBlock c (row0Stmts N ++ rest) (F.sponge u pw s m v) =
      (isub p F.n_cols 1 >>= fun a => imul p a BLOCKLENINT64 >>= fun ptr =>
        forLoop 0 F.n_cols.toNat (fun _ (r : State × Matrix × I64) => do
          let m ← unroll12 (fun w m => do
            let i ← iadd p r.2.2 (BitVec.ofNat 64 w)
            vset m (usz u i) r.1[w]) r.2.1
          pure (reduced_blake2b_lyra r.1, m, r.2.2 - BLOCKLENINT64)) (s, m, ptr) >>= fun r =>
        execBlock c rest (("ptr", .i64 r.2.2) :: F.sponge u pw r.1 r.2.1 v)) := by
  have h1 : ∀ rest, execBlock c (.letVar "ptr" none (.bin .mul (.bin .sub (.cast (.var "n_cols") .i64) (.lit 1)) (.const N.blk)) :: rest) (F.sponge u pw s m v) =
      (isub p F.n_cols 1 >>= fun a => imul p a BLOCKLENINT64 >>= fun ptr => execBlock c rest (("ptr", .i64 ptr) :: F.sponge u pw s m v)) := by
    intro rest
    run_src [Frame.sponge, Frame.input, Frame.outer, hc.isBlk, hc.width, hc.prof]
    rfl
  unfold row0Stmts
  simp only [List.cons_append, List.nil_append]
  rw [h1]
  refine bind_congr fun a => ?_
  refine bind_congr fun ptr => ?_
  refine execBlock_next (f := fun r : State × Matrix × I64 => ("ptr", .i64 r.2.2) :: F.sponge u pw r.1 r.2.1 v) ?_
  rw [exec_for_u64 (n := F.n_cols) "_i" _ (by rfl)]
  rw [forLoop_map (fun r : State × Matrix × I64 => ("ptr", .i64 r.2.2) :: F.sponge u pw r.1 r.2.1 v) 0 F.n_cols.toNat
    (fun _ (r : State × Matrix × I64) => do
          let m ← unroll12 (fun w m => do
            let i ← iadd p r.2.2 (BitVec.ofNat 64 w)
            vset m (usz u i) r.1[w]) r.2.1
          pure (reduced_blake2b_lyra r.1, m, r.2.2 - BLOCKLENINT64)) _ _ (s, m, ptr)]
  · simp only [bind_assoc, pure_bind]
  · intro k r _ _
    have h := exec_row0Cols hc.toLyraCtx (e := F.sponge u pw r.1 r.2.1 v) ⟨⟨_, by rfl⟩, ⟨_, by rfl⟩⟩ (BitVec.ofNat 64 k) r.2.2 r.1 r.2.1
    refine (forBody_next (m := unroll12 (fun w m => do
            let i ← iadd p r.2.2 (BitVec.ofNat 64 w)
            vset m (usz u i) r.1[w]) r.2.1)
        (f := fun m' => ("ptr", .i64 (r.2.2 - BLOCKLENINT64)) :: F.sponge u pw (reduced_blake2b_lyra r.1) m' v) (fun _ => ?_) ?_).trans ?_
    · rw [List.length_cons, List.length_cons, sponge_length, sponge_length]
    · simp only [put_sponge] at h
      exact h
    · simp only [bind_assoc, pure_bind]

/-! ## The rows from 2 on -/

/-- The variables of the setup phase. -/
def Frame.work (u : Nat) (F : Frame) (ptr : I64) (pw : BitVec 64) (s : State) (m : Matrix) (v : SetupVars) : Env :=
  ("_x", .i64 2) :: ("ptr", .i64 ptr) :: F.sponge u pw s m v

/-- `let _x = row`, after row 1. -/
def row1Stmts (N : Names) : List Stmt :=
  [.forIn "_i" (.lit 0) (.var "n_cols") false (row1Cols N.blk N.red), .letVar "_x" (some (.int .i64)) (.var "row")]

theorem exec_row1 (hc : MainCtx c u p N) (rest : List Stmt) (ptr : I64) (pw : BitVec 64) (s : State) (m : Matrix) :
    execBlock c (row1Stmts N ++ rest) (("ptr", .i64 ptr) :: F.sponge u pw s m SetupVars.start) =
      (duplexRow1 u p F.n_cols F.rl s m >>= fun r => execBlock c rest (F.work u ptr pw r.1 r.2 SetupVars.start)) := by
  unfold row1Stmts
  simp only [List.cons_append, List.nil_append]
  have h := exec_row1Cols hc.toLyraCtx (e := ("ptr", .i64 ptr) :: F.sponge u pw s m SetupVars.start) (n_cols := F.n_cols) (rl := F.rl)
    ⟨⟨_, by rfl⟩, ⟨_, by rfl⟩⟩ (by rfl) (by rfl) s m
  rw [show put (("ptr", .i64 ptr) :: F.sponge u pw s m SetupVars.start) s m = ("ptr", .i64 ptr) :: F.sponge u pw s m SetupVars.start from rfl] at h
  rw [execBlock_next h]
  refine bind_congr fun r => ?_
  rw [show put (("ptr", .i64 ptr) :: F.sponge u pw s m SetupVars.start) r.1 r.2 = ("ptr", .i64 ptr) :: F.sponge u pw r.1 r.2 SetupVars.start from rfl]
  run_src [Frame.work, Frame.sponge, Frame.input, Frame.outer]
  rfl

/-- What follows the columns in the loop over the rows. -/
def nextStmts : List Stmt :=
  [.assign (.var "rowa") (.bin .and (.bin .add (.var "rowa") (.var "step")) (.bin .sub (.var "window") (.lit 1))),
    .assign (.var "prev") (.var "row"), .assignOp .add (.var "row") (.lit 1),
    .ifElse (.bin .eq (.var "rowa") (.lit 0))
      [.assign (.var "step") (.bin .add (.var "window") (.var "gap")), .assignOp .mul (.var "window") (.lit 2),
        .assign (.var "gap") (.neg (.var "gap"))] []]

/-- The body of the loop over the rows. -/
def setupBody (N : Names) : List Stmt := .forIn "_i" (.lit 0) (.var "n_cols") false (setupCols N.blk N.red) :: nextStmts

theorem exec_nextStmts (hc : MainCtx c u p N) (x : Val) (ptr : I64) (pw : BitVec 64) (s : State) (m : Matrix) (v : SetupVars) :
    execBlock c nextStmts (("_x", x) :: F.work u ptr pw s m v) =
      (v.next p >>= fun v' => pure (.next (("_x", x) :: F.work u ptr pw s m v'))) := by
  run_src [nextStmts, Frame.work, Frame.sponge, Frame.input, Frame.outer, hc.width, hc.prof, SetupVars.next]
  refine bind_congr fun a => ?_
  refine bind_congr fun b => ?_
  refine bind_congr fun r => ?_
  by_cases h : a &&& b = 0#64
  · rw [show decide (a &&& b = 0#64) = true by simp [h], if_pos (show a &&& b = 0 from h)]
    run_src [hc.width, hc.prof]
    rfl
  · rw [show decide (a &&& b = 0#64) = false by simp [h], if_neg (show ¬ a &&& b = 0 from h)]
    run_src
    rfl

/-- A `for` loop over `i64`. -/
theorem exec_for_i64_from {env : Env} {lo hi : Expr} {a n : I64} (x : String) (body : List Stmt) (h1 : eval c env none lo = pure (.i64 a))
    (h2 : eval c env none hi = pure (.i64 n)) :
    exec c (.forIn x lo hi false body) env =
      (forLoop 0 (irangeLen a n) (forBody c x (fun k => .i64 (BitVec.ofInt 64 (a.toInt + k))) body) env >>= fun env => pure (.next env)) := by
  rw [exec, h1, h2]
  simp only [pure_bind, num_i64]
  have e1 : (n.toInt - a.toInt + (if false = true then 1 else 0)).toNat = irangeLen a n := by
    simp [irangeLen]
  rw [e1]
  rfl

theorem exec_setup (hc : MainCtx c u p N) (ptr : I64) (pw : BitVec 64) (s : State) (m : Matrix) (v : SetupVars) :
    exec c (.forIn "_x" (.var "_x") (.cast (.var "n_rows") .i64) false (setupBody N)) (F.work u ptr pw s m v) =
      (forLoop 0 (irangeLen 2 F.n_rows) (fun _ (r : State × Matrix × SetupVars) => do
        let q ← duplexRowSetup u p F.n_cols F.rl r.2.2.prev r.2.2.rowa r.2.2.row r.1 r.2.1
        let v ← r.2.2.next p
        pure (q.1, q.2, v)) (s, m, v) >>= fun r => pure (.next (F.work u ptr pw r.1 r.2.1 r.2.2))) := by
  rw [exec_for_i64_from (a := 2) (n := F.n_rows) "_x" _ (by rfl) (by run_src [Frame.work, Frame.sponge, Frame.input, Frame.outer])]
  rw [forLoop_map (fun r : State × Matrix × SetupVars => F.work u ptr pw r.1 r.2.1 r.2.2) 0 (irangeLen 2 F.n_rows)
    (fun _ (r : State × Matrix × SetupVars) => do
        let q ← duplexRowSetup u p F.n_cols F.rl r.2.2.prev r.2.2.rowa r.2.2.row r.1 r.2.1
        let v ← r.2.2.next p
        pure (q.1, q.2, v)) _ _ (s, m, v)]
  · simp only [bind_assoc, pure_bind]
  · intro k r _ _
    obtain ⟨s, m, v⟩ := r
    simp only
    generalize hx : Val.i64 (BitVec.ofInt 64 ((2 : BitVec 64).toInt + k)) = x
    have h := exec_setupCols hc.toLyraCtx (e := ("_x", x) :: F.work u ptr pw s m v) (n_cols := F.n_cols) (rl := F.rl) (prev := v.prev) (rowa := v.rowa) (row := v.row)
      ⟨⟨⟨_, by rfl⟩, ⟨_, by rfl⟩⟩, by rfl, by rfl, by rfl, by rfl, by rfl⟩ s m
    rw [show put (("_x", x) :: F.work u ptr pw s m v) s m = ("_x", x) :: F.work u ptr pw s m v from rfl] at h
    refine (forBody_next (m := duplexRowSetup u p F.n_cols F.rl v.prev v.rowa v.row s m >>= fun q => v.next p >>= fun v => pure (q.1, q.2, v))
        (f := fun r : State × Matrix × SetupVars => F.work u ptr pw r.1 r.2.1 r.2.2) (fun _ => rfl) ?_)
    rw [hx, setupBody, execBlock_next h]
    simp only [bind_assoc, pure_bind]
    refine bind_congr fun q => ?_
    exact exec_nextStmts hc x ptr pw q.1 q.2 v

/-! ## Wandering -/

/-- The variables of the wandering phase. -/
def Frame.wander (u : Nat) (F : Frame) (ptr : I64) (pw : BitVec 64) (window gap step : I64) (w : WanderVars) : Env :=
  F.work u ptr pw w.state w.m ⟨w.row, w.prev, w.rowa, step, window, gap⟩

/-- What follows the columns in a visit of a row. -/
def afterCols : List Stmt :=
  [.assign (.var "prev") (.var "row"),
    .assign (.var "row") (.bin .and (.bin .add (.var "row") (.var "step")) (.bin .sub (.cast (.var "n_rows") .i64) (.lit 1))),
    .ifElse (.bin .eq (.var "row") (.lit 0)) [.break] []]

/-- A visit of a row. -/
def visitStmts (N : Names) : List Stmt :=
  .assign (.var "rowa") (.cast (.bin .and (.index (.var "state") (.lit 0)) (.bin .sub (.var "n_rows") (.lit 1))) .i64) ::
    .forIn "_i" (.lit 0) (.var "n_cols") false (wanderCols N.blk N.red) :: afterCols

/-- How the body of `loop` ends. -/
def flowOf {W : Type} (f : W → Env) : W ⊕ W → Flow
  | .inl w => .next (f w)
  | .inr w => .brk (f w)

theorem exec_afterCols (hc : MainCtx c u p N) (t : Val) (ptr : I64) (pw : BitVec 64) (window gap step : I64) (w : WanderVars) :
    execBlock c afterCols (("_tau", t) :: F.wander u ptr pw window gap step w) =
      (iadd p w.row step >>= fun a => isub p F.n_rows 1 >>= fun b =>
        pure (flowOf (fun w => ("_tau", t) :: F.wander u ptr pw window gap step w)
          (if a &&& b = 0 then .inr { w with prev := w.row, row := a &&& b } else .inl { w with prev := w.row, row := a &&& b }))) := by
  run_src [afterCols, Frame.wander, Frame.work, Frame.sponge, Frame.input, Frame.outer, hc.width, hc.prof]
  refine bind_congr fun a => ?_
  refine bind_congr fun b => ?_
  by_cases h : a &&& b = 0#64
  · rw [show decide (a &&& b = 0#64) = true by simp [h], if_pos (show a &&& b = 0 from h)]
    run_src
    rfl
  · rw [show decide (a &&& b = 0#64) = false by simp [h], if_neg (show ¬ a &&& b = 0 from h)]
    run_src
    rfl

theorem exec_visit (hc : MainCtx c u p N) (t : Val) (ptr : I64) (pw : BitVec 64) (window gap step : I64) (w : WanderVars) :
    execBlock c (visitStmts N) (("_tau", t) :: F.wander u ptr pw window gap step w) =
      (wanderBody u p F.n_rows F.n_cols F.rl step w >>= fun x => pure (flowOf (fun w => ("_tau", t) :: F.wander u ptr pw window gap step w) x)) := by
  have h1 : ∀ rest, execBlock c (.assign (.var "rowa") (.cast (.bin .and (.index (.var "state") (.lit 0)) (.bin .sub (.var "n_rows") (.lit 1))) .i64) :: rest)
      (("_tau", t) :: F.wander u ptr pw window gap step w) =
      (usub p F.n_rows 1 >>= fun a => execBlock c rest (("_tau", t) :: F.wander u ptr pw window gap step { w with rowa := w.state[0] &&& a })) := by
    intro rest
    run_src [Frame.wander, Frame.work, Frame.sponge, Frame.input, Frame.outer, hc.width, hc.prof]
    rfl
  rw [visitStmts, h1, wanderBody]
  simp only [bind_assoc]
  refine bind_congr fun a => ?_
  generalize w.state[0] &&& a = rowa
  have h := exec_wanderCols hc.toLyraCtx (e := ("_tau", t) :: F.wander u ptr pw window gap step { w with rowa := rowa }) (n_cols := F.n_cols) (rl := F.rl) (prev := w.prev)
    (rowa := rowa) (row := w.row) ⟨⟨⟨_, by rfl⟩, ⟨_, by rfl⟩⟩, by rfl, by rfl, by rfl, by rfl, by rfl⟩ w.state w.m
  rw [show put (("_tau", t) :: F.wander u ptr pw window gap step { w with rowa := rowa }) w.state w.m =
    ("_tau", t) :: F.wander u ptr pw window gap step { w with rowa := rowa } from rfl] at h
  rw [execBlock_next h]
  refine bind_congr fun q => ?_
  rw [show put (("_tau", t) :: F.wander u ptr pw window gap step { w with rowa := rowa }) q.1 q.2 =
    ("_tau", t) :: F.wander u ptr pw window gap step { w with rowa := rowa, state := q.1, m := q.2 } from rfl]
  rw [exec_afterCols hc]
  refine bind_congr fun a => ?_
  refine bind_congr fun b => ?_
  split <;> rw [pure_bind]

/-- `loop` whose body acts on an image of the state. -/
theorem exec_loop {W : Type} {body : List Stmt} {step : W → Res (W ⊕ W)} (f : W → Env) (n : Nat) (hlen : ∀ w, (f w).length = n)
    (h : ∀ w, execBlock c body (f w) = (step w >>= fun x => pure (flowOf f x))) (w : W) :
    exec c (.loop body) (f w) = (loop step w >>= fun w' => pure (.next (f w'))) := by
  have key := loop_map (body := step) (body' := fun env => do
      match (← execScope c env.length body env) with
      | .next env => pure (.inl env)
      | .brk env => pure (.inr env)) f f (fun w => by
    simp only [execScope, h, bind_assoc, pure_bind]
    refine bind_congr fun x => ?_
    match x with
    | .inl w' => simp only [flowOf, pure_bind, Sum.map_inl]; rw [leave_self (by rw [hlen, hlen])]
    | .inr w' => simp only [flowOf, pure_bind, Sum.map_inr]; rw [leave_self (by rw [hlen, hlen])]) w
  rw [exec]
  refine (congrArg (fun m : Res Env => m >>= fun env => pure (Flow.next env)) key.symm).trans ?_
  simp only [bind_assoc, pure_bind]

/-- What comes before `loop` in a pass. -/
def stepStmts : List Stmt :=
  [.assign (.var "step") (.bin .sub (.bin .div (.cast (.var "n_rows") .i64) (.lit 2)) (.lit 1)),
    .ifElse (.bin .eq (.bin .rem (.var "_tau") (.lit 2)) (.lit 0)) [.assign (.var "step") (.neg (.lit 1))] []]

/-- The body of the loop over the passes. -/
def passBody (N : Names) : List Stmt := stepStmts ++ [.loop (visitStmts N)]

theorem exec_step (hc : MainCtx c u p N) (rest : List Stmt) (t : U64) (ptr : I64) (pw : BitVec 64) (window gap step : I64) (w : WanderVars) :
    execBlock c (stepStmts ++ rest) (("_tau", .u64 t) :: F.wander u ptr pw window gap step w) =
      (wanderStep p F.n_rows t.toNat >>= fun step' => execBlock c rest (("_tau", .u64 t) :: F.wander u ptr pw window gap step' w)) := by
  have h2 : (0 : Int) < (2#64).toInt := by decide
  run_src [stepStmts, Frame.wander, Frame.work, Frame.sponge, Frame.input, Frame.outer, hc.width, hc.prof, wanderStep, h2, rem_u64_2, eq_u64]
  refine bind_congr fun s => ?_
  have h : (BitVec.ofNat 64 (t.toNat % 2)).toNat = t.toNat % 2 := by simp; omega
  rw [h, show (0#64).toNat = 0 from rfl]
  by_cases h : t.toNat % 2 = 0
  · rw [show decide (t.toNat % 2 = 0) = true by simp [h], if_pos h, pure_bind]
    run_src
    rfl
  · rw [show decide (t.toNat % 2 = 0) = false by simp [h], if_neg h, pure_bind]
    run_src
    rfl

/-- `for x in 1..=n` over `u64`. -/
theorem exec_for_incl {env : Env} {hi : String} {n : U64} (x : String) (body : List Stmt) (h : Has env hi (.u64 n)) :
    exec c (.forIn x (.lit 1) (.var hi) true body) env =
      (forLoop 0 n.toNat (forBody c x (fun k => .u64 (BitVec.ofNat 64 (k + 1))) body) env >>= fun env => pure (.next env)) := by
  rw [exec, eval, eval_var h, asTy]
  · simp only [pure_bind, num_lit 1 (by decide), num_u64, ↓reduceIte]
    have e1 : ((n.toNat : Int) - ((1 : Nat) : Int) + 1).toNat = n.toNat := by simp
    rw [e1]
    have e2 : ∀ k : Nat, rangeVal (.lit ((1 : Nat) : Int)) (.u64 n) (((1 : Nat) : Int) + k) = .u64 (BitVec.ofNat 64 (k + 1)) := by
      intro k
      rw [← Int.natCast_add, Nat.add_comm]
      simp only [rangeVal, BitVec.ofInt_natCast]
    simp only [e2]
    rfl
  · simp

theorem exec_wander (hc : MainCtx c u p N) (ptr : I64) (pw : BitVec 64) (window gap step : I64) (w : WanderVars) :
    ∃ m : Res (WanderVars × I64), (m >>= fun r => pure r.1) = wander u p F.time_cost F.n_rows F.n_cols F.rl w ∧
      exec c (.forIn "_tau" (.lit 1) (.var "time_cost") true (passBody N)) (F.wander u ptr pw window gap step w) =
        (m >>= fun r => pure (.next (F.wander u ptr pw window gap r.2 r.1))) := by
  refine ⟨forLoop 0 F.time_cost.toNat (fun k (r : WanderVars × I64) => wanderStep p F.n_rows (k + 1) >>= fun step =>
    loop (wanderBody u p F.n_rows F.n_cols F.rl step) r.1 >>= fun w => pure (w, step)) (w, step), ?_, ?_⟩
  · rw [wander, show (1 : Nat) = 0 + 1 from rfl, forLoop_shift, ← forLoop_map Prod.fst]
    intro k r _ _
    simp only [bind_assoc, pure_bind, bind_pure]
  · rw [exec_for_incl (n := F.time_cost) "_tau" _ (by rfl)]
    rw [forLoop_map (fun r : WanderVars × I64 => F.wander u ptr pw window gap r.2 r.1) 0 F.time_cost.toNat
      (fun k (r : WanderVars × I64) => wanderStep p F.n_rows (k + 1) >>= fun step =>
        loop (wanderBody u p F.n_rows F.n_cols F.rl step) r.1 >>= fun w => pure (w, step)) _ _ (w, step)]
    · simp only [bind_assoc, pure_bind]
    · intro k r _ hk
      refine forBody_next (f := fun r : WanderVars × I64 => F.wander u ptr pw window gap r.2 r.1) (fun _ => rfl) ?_
      have ht : (BitVec.ofNat 64 (k + 1)).toNat = k + 1 := by
        have := F.time_cost.isLt
        simp
        omega
      rw [passBody, exec_step hc, ht, bind_assoc]
      refine bind_congr fun step => ?_
      rw [execBlock_next (exec_loop (fun w => ("_tau", .u64 (BitVec.ofNat 64 (k + 1))) :: F.wander u ptr pw window gap step w) 24 (fun _ => rfl)
        (exec_visit hc _ ptr pw window gap step) r.1)]
      simp only [bind_assoc, pure_bind, execBlock]

/-! ## The end -/

/-- The statements after the last pass. -/
def endStmts (N : Names) : List Stmt :=
  [.letSnd "_right" (.method (.var "whole_matrix") "split_at" [.cast (.bin .mul (.var "rowa") (.var "row_len_int64")) .usize]),
    .assign (.var "state") (.call N.absorb [.var "state", .method (.var "_right") "to_vec" []])]

theorem finish_end (hc : MainCtx c u p N) (ptr : I64) (pw : BitVec 64) (window gap step : I64) (w : WanderVars) :
    finish c (endStmts N) (.call N.squeeze [.var "state", .var "k"]) (F.wander u ptr pw window gap step w) =
      (wrapUp u p F.k F.rl w >>= fun xs => pure (.bytes xs)) := by
  run_src [finish, endStmts, Frame.wander, Frame.work, Frame.sponge, Frame.input, Frame.outer, hc.width, hc.prof, split_words, hc.isAbsorb, if_neg hc.absorbExt,
    hc.isSqueeze, if_neg hc.squeezeExt, wrapUp]

/-! ## The whole function -/

/-- The body of the function up to the end of the setup phase. -/
def setupPart (N : Names) (rest : List Stmt) : List Stmt :=
  prelude ++ (allocStmts N ++ (blocksStmts N ++ (inputStmts N ++ (absorbStmts N ++ (row0Stmts N ++ (row1Stmts N ++
    (.forIn "_x" (.var "_x") (.cast (.var "n_rows") .i64) false (setupBody N) :: rest)))))))

open Proofs Proofs.Lyra2 Res in
theorem writeInput_size (p : Profile) (k T R C : U64) (pwd salt : List U8) (n : I64) (m : Matrix) :
    (writeInput u p k pwd salt T R C n m).Post (fun m' => m'.size = m.size) := by
  unfold writeInput
  refine Post.bind (writeWords_post _ _ _) fun m1 h1 => ?_
  refine Post.bind (writeWords_post _ _ _) fun m2 h2 => ?_
  refine Post.bind (vset_post _ _ _) fun m3 h3 => ?_
  refine Post.bind (vset_post _ _ _) fun m4 h4 => ?_
  refine Post.bind (vset_post _ _ _) fun m5 h5 => ?_
  refine Post.bind (vset_post _ _ _) fun m6 h6 => ?_
  refine Post.bind (vset_post _ _ _) fun m7 h7 => ?_
  refine Post.bind (vset_post _ _ _) fun m8 h8 => ?_
  refine Post.bind (vset_post _ _ _) fun m9 h9 => ?_
  refine Post.bind (imul_post _ _ _) fun a _ => ?_
  refine Post.bind (isub_post _ _ _) fun b _ => ?_
  refine Post.bind (vget_post _ _) fun x _ => ?_
  refine (vset_post _ _ _).mono fun m10 h10 => ?_
  omega

theorem finish_setup (hc : MainCtx c u p N) (k : U64) (pwd salt : List U8) (time_cost n_rows n_cols : U64)
    (hp : pwd.length ≤ isizeMax u) (hs : salt.length ≤ isizeMax u) (rest : List Stmt) (result : Expr) (K : I64 → State → Matrix → SetupVars → Res Val)
    (hK : ∀ rl total blocks ptr pw s m v,
      finish c rest result (Frame.work u ⟨k, pwd, salt, time_cost, n_rows, n_cols, rl, total, blocks⟩ ptr pw s m v) = K rl s m v) :
    finish c (setupPart N rest) result
      [("k", .u64 k), ("pwd", .bytes pwd), ("salt", .bytes salt), ("time_cost", .u64 time_cost), ("n_rows", .u64 n_rows), ("n_cols", .u64 n_cols)] =
      (do
        if time_cost.toNat < 1 then throw .explicit
        if n_rows.toNat < 3 then throw .explicit
        let (row_len_int64, m) ← allocMatrix u p n_rows n_cols
        let n_blocks_input ← nBlocksInput u p pwd.length salt.length
        let m ← writeInput u p k pwd salt time_cost n_rows n_cols n_blocks_input m
        let state ← absorbInput n_blocks_input m init_state
        let (state, m) ← squeezeRow0 u p n_cols state m
        let (state, m) ← duplexRow1 u p n_cols row_len_int64 state m
        let (state, m, v) ← setupRows u p n_rows n_cols row_len_int64 state m
        K row_len_int64 state m v) := by
  have h0 := fun rest => exec_prelude (c := c) ⟨k, pwd, salt, time_cost, n_rows, n_cols, 0, 0, 0⟩ rest
  rw [finish, setupPart, h0]
  simp only
  by_cases ht : time_cost.toNat < 1
  · simp only [ht, ↓reduceIte, Res.throw_bind]
  by_cases hr : n_rows.toNat < 3
  · simp only [ht, hr, ↓reduceIte, Res.throw_bind]
  simp only [ht, hr, ↓reduceIte]
  have h1 := fun rest => exec_alloc (c := c) (F := ⟨k, pwd, salt, time_cost, n_rows, n_cols, 0, 0, 0⟩) hc rest SetupVars.start
  rw [h1, allocMatrix]
  simp only [bind_assoc, pure_bind]
  refine bind_congr fun rl => ?_
  refine bind_congr fun total => ?_
  refine bind_congr_pure fun m hm => ?_
  have hm : 8 * m.size ≤ isizeMax u := by
    unfold vecOf at hm
    split at hm
    · rw [← Res.pure_inj hm]
      simpa using ‹_›
    · exact (Res.pure_ne_throw hm.symm).elim
  rw [exec_blocks (F := ⟨k, pwd, salt, time_cost, n_rows, n_cols, 0, 0, 0⟩) hc hp hs _ _ (by rfl) (by rfl)]
  simp only [bind_assoc]
  refine bind_congr fun blocks => ?_
  have hK := hK rl total blocks
  generalize hF : (⟨k, pwd, salt, time_cost, n_rows, n_cols, rl, total, blocks⟩ : Frame) = F at hK
  have hstart : ("ptr_byte", .usize 0) :: ("n_blocks_input", .i64 blocks) :: ("whole_matrix", .words64 m) :: ("_i", .i64 total) ::
      ("row_len_int64", .i64 rl) :: ("_i", .i64 0) :: Frame.outer ⟨k, pwd, salt, time_cost, n_rows, n_cols, 0, 0, 0⟩ SetupVars.start = F.input 0 m SetupVars.start := by
    rw [← hF]
    rfl
  rw [hstart]
  have ek : k = F.k := by rw [← hF]
  have epwd : pwd = F.pwd := by rw [← hF]
  have esalt : salt = F.salt := by rw [← hF]
  have etime : time_cost = F.time_cost := by rw [← hF]
  have erows : n_rows = F.n_rows := by rw [← hF]
  have ecols : n_cols = F.n_cols := by rw [← hF]
  have erl : rl = F.rl := by rw [← hF]
  have eblocks : blocks = F.blocks := by rw [← hF]
  rw [exec_input hc (epwd ▸ hp) (esalt ▸ hs), ek, epwd, esalt, etime, erows, ecols, eblocks]
  simp only [bind_assoc]
  refine bind_congr_pure fun m' hm' => ?_
  have hsz : m'.size = m.size := (writeInput_size _ _ _ _ _ _ _ _ _).of_eq_pure hm'
  rw [exec_absorb hc _ _ (by rw [hsz]; exact hm), absorbInput]
  simp only [bind_assoc, pure_bind]
  refine bind_congr fun r => ?_
  rw [exec_row0 hc, squeezeRow0]
  simp only [bind_assoc, pure_bind]
  refine bind_congr fun a => ?_
  refine bind_congr fun ptr => ?_
  refine bind_congr fun r => ?_
  rw [exec_row1 hc]
  simp only [bind_assoc]
  rw [← erl]
  refine bind_congr fun q => ?_
  rw [execBlock_next (exec_setup hc _ _ _ _ _), setupRows, show (2 : Nat) = 0 + 2 from rfl, forLoop_shift, ← erl]
  simp only [bind_assoc]
  refine bind_congr fun _ => ?_
  exact hK _ _ _ _ _

/-- The rest of the body of `lyra2`. -/
def restStmts (N : Names) : List Stmt :=
  .assign (.var "row") (.lit 0) :: .forIn "_tau" (.lit 1) (.var "time_cost") true (passBody N) :: endStmts N

theorem finish_rest (hc : MainCtx c u p N) (ptr : I64) (pw : BitVec 64) (s : State) (m : Matrix) (v : SetupVars) :
    finish c (restStmts N) (.call N.squeeze [.var "state", .var "k"]) (F.work u ptr pw s m v) =
      ((wander u p F.time_cost F.n_rows F.n_cols F.rl { state := s, m, prev := v.prev, row := 0, rowa := v.rowa } >>= fun w => wrapUp u p F.k F.rl w) >>=
        fun xs => pure (.bytes xs)) := by
  have h1 : ∀ rest, execBlock c (.assign (.var "row") (.lit 0) :: rest) (F.work u ptr pw s m v) =
      execBlock c rest (F.wander u ptr pw v.window v.gap v.step { state := s, m, prev := v.prev, row := 0, rowa := v.rowa }) := by
    intro rest
    run_src [Frame.wander, Frame.work, Frame.sponge, Frame.input, Frame.outer]
    rfl
  obtain ⟨q, hq, h2⟩ := exec_wander (F := F) hc ptr pw v.window v.gap v.step { state := s, m, prev := v.prev, row := 0, rowa := v.rowa }
  rw [finish, restStmts, h1, execBlock_next h2, ← hq]
  simp only [bind_assoc, pure_bind]
  refine bind_congr fun r => ?_
  exact finish_end hc _ _ _ _ _ _

theorem finish_main (hc : MainCtx c u p N) (k : U64) (pwd salt : List U8) (time_cost n_rows n_cols : U64)
    (hp : pwd.length ≤ isizeMax u) (hs : salt.length ≤ isizeMax u) :
    finish c (setupPart N (restStmts N)) (.call N.squeeze [.var "state", .var "k"])
      [("k", .u64 k), ("pwd", .bytes pwd), ("salt", .bytes salt), ("time_cost", .u64 time_cost), ("n_rows", .u64 n_rows), ("n_cols", .u64 n_cols)] =
      (Model.Target.lyra2 u p k pwd salt time_cost n_rows n_cols >>= fun xs => pure (.bytes xs)) := by
  rw [finish_setup hc k pwd salt time_cost n_rows n_cols hp hs _ _
    (fun rl s m v => (wander u p time_cost n_rows n_cols rl { state := s, m, prev := v.prev, row := 0, rowa := v.rowa } >>= fun w => wrapUp u p k rl w) >>=
        fun xs => pure (.bytes xs))
    (fun rl total blocks ptr pw s m v => finish_rest (F := ⟨k, pwd, salt, time_cost, n_rows, n_cols, rl, total, blocks⟩) hc ptr pw s m v), Model.Target.lyra2]
  by_cases ht : time_cost.toNat < 1
  · simp only [ht, ↓reduceIte, Res.throw_bind]
  by_cases hr : n_rows.toNat < 3
  · simp only [ht, hr, ↓reduceIte, Res.throw_bind]
  simp only [ht, hr, ↓reduceIte, bind_assoc]

/-! ## lyra2 -/

/-- The names of the items that `lyra2` uses. -/
def lyra2Names : Names where
  blk := "lyra2::BLOCKLENINT64"
  safe64 := "lyra2::BLOCKLENBLAKE2SAFEINT64"
  safeBytes := "lyra2::BLOCKLENBLAKE2SAFEBYTES"
  init := "lyra2::init_state"
  safe := "lyra2::absorb_block_blake2_safe"
  absorb := "lyra2::absorb_block"
  squeeze := "lyra2::squeeze"
  red := "lyra2::reduced_blake2b_lyra"

variable {ext : String → Option (List U8 → List U8)} {d : Nat}

theorem lyra2_ctx : MainCtx (ctx ext u p (d + 5)) u p lyra2Names where
  width := rfl
  prof := rfl
  isBlk := call_BLOCKLENINT64
  isRed := call_reduced
  notExt := by decide
  isSafe64 := call_SAFEINT64
  isSafeBytes := call_SAFEBYTES
  isInit := call_init_state
  isSafe := call_absorb_safe
  isAbsorb := call_absorb_block
  isSqueeze := call_squeeze
  isRead := call_read_u64_le
  initExt := by decide
  safeExt := by decide
  absorbExt := by decide
  squeezeExt := by decide

theorem lyra2_body : lyra2.lyra2.body = setupPart lyra2Names (restStmts lyra2Names) := by rfl

theorem call_lyra2 (k : U64) (pwd salt : List U8) (time_cost n_rows n_cols : U64) (hp : pwd.length ≤ isizeMax u) (hs : salt.length ≤ isizeMax u) :
    call crate ext u p (d + 6) "lyra2::lyra2" [.u64 k, .bytes pwd, .bytes salt, .u64 time_cost, .u64 n_rows, .u64 n_cols] =
      (Model.Target.lyra2 u p k pwd salt time_cost n_rows n_cols >>= fun xs => pure (.bytes xs)) := by
  rw [call_fn "lyra2::lyra2" lyra2.lyra2 _ (by rfl), ← finish_main (lyra2_ctx (ext := ext) (d := d)) k pwd salt time_cost n_rows n_cols hp hs, ← lyra2_body]
  rfl

/-- Arguments that a function turns into the same values of its parameters are the same to it. -/
theorem call_args (name : String) (f : Fn) (h : crate.find? (·.name = name) = some f) {us vs : List Val} (hb : bindArgs f.params us = bindArgs f.params vs) :
    call crate ext u p (d + 1) name us = call crate ext u p (d + 1) name vs := by
  rw [call_fn name f _ h, call_fn name f _ h, runFn, runFn, hb]

theorem call_sum (input : List U8) (h : input.length ≤ isizeMax u) :
    call crate ext u p (d + 7) "lyra2::sum" [.bytes input] = (Model.Target.sum u p input >>= fun xs => pure (.bytes xs)) := by
  rw [call_fn "lyra2::sum" lyra2.sum _ (by rfl)]
  have h1 := call_lyra2 (u := u) (p := p) (ext := ext) (d := d) 32#64 input input 1#64 4#64 4#64 h h
  run_src [runFn, lyra2.sum]
  rw [call_args "lyra2::lyra2" lyra2.lyra2 (by rfl) (vs := [.u64 32#64, .bytes input, .bytes input, .u64 1#64, .u64 4#64, .u64 4#64]) (by rfl)]
  exact h1

end Source

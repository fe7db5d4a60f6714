import Verif.Proofs.LogErase
import Verif.Proofs.LoopIter
import Verif.Proofs.SrcLogMain

/-! What is seen of the setup phase, of the wandering phase and of the wrap-up of `lyra2`, as they stand in the source. -/

set_option linter.unusedSectionVars false

namespace Source
open Rust
open Model.Log (Logged LoggedOf quiet emit)
open Model.Lyra2 (State Matrix SetupVars WanderVars BLOCKLENINT64 BLOCKLENBYTES BLOCKLENBLAKE2SAFEINT64 BLOCKLENBLAKE2SAFEBYTES init_state wanderStep)
open Model.Utils
open Proofs.Target

variable {c : LCtx Event} {c' : Ctx} {u : Nat} [Width u] {p : Profile} {N : Names} {F : Frame}

/-- Runs statements, then evaluates the result of the function. -/
def finishL (c : LCtx Event) (ss : List Stmt) (result : Expr) (env : Env) : Logged Val := do
  match (← execBlockL c ss env) with
  | .next env => evalL c env (some (.vec .u8)) result
  | .brk _ => quiet stuck

theorem finishL_of {σ : Type} {ss rest : List Stmt} {env : Env} {m : Logged σ} {f : σ → Env} {result : Expr}
    (h : execBlockL c ss env = (m >>= fun a => execBlockL c rest (f a))) :
    finishL c ss result env = (m >>= fun a => finishL c rest result (f a)) := by
  unfold finishL
  rw [h, bind_assoc]

/-! ## Row 0 -/

theorem execL_row0Cols {blk red : String} (hc : LyraSeen c c' u p blk red) {e : Env} (hsh : Shaped e) (i : U64) (ptr : I64) (s : State) (m : Matrix) :
    execBlockL c (row0Cols blk red) (("_i", .u64 i) :: ("ptr", .i64 ptr) :: put e s m) =
      ((Model.Log.unroll12 (fun w m => do
        let i ← quiet (iadd p ptr (BitVec.ofNat 64 w))
        Model.Log.put m (Model.Target.usz u i) s[w]) m >>= fun m' => Model.Log.round s >>= fun s' => pure (s', m')) >>= fun r =>
          pure (.next (("_i", .u64 i) :: ("ptr", .i64 (ptr - BLOCKLENINT64)) :: put e r.1 r.2))) := by
  unfold row0Cols
  rw [execBlockL_unroll _ (fun w m => do
        let i ← quiet (iadd p ptr (BitVec.ofNat 64 w))
        Model.Log.put m (Model.Target.usz u i) s[w]) (fun m => ("_i", .u64 i) :: ("ptr", .i64 ptr) :: put e s m)]
  · simp only [bind_assoc]
    refine bind_congr fun m => ?_
    have h1 : exec c' (.assign (.var "ptr") (.method (.var "ptr") "wrapping_sub" [.const blk])) (("_i", .u64 i) :: ("ptr", .i64 ptr) :: put e s m) =
        pure (.next (("_i", .u64 i) :: ("ptr", .i64 (ptr - BLOCKLENINT64)) :: put e s m)) := by
      run_src [hc.plain.isBlk]
      rfl
    rw [execBlockL_next_quiet hc.toSeen (by simp [hushS, hushE, hushEs, hushP, hushL, rootOf, quietVar, hc.quietBlk]) h1,
      execBlockL_next (execL_reduced hc (s := s) (((hsh.has_state s m).cons (by decide) _).cons (by decide) _))]
    refine bind_congr fun s' => ?_
    rw [Env.upd_cons (by decide), Env.upd_cons (by decide), put_state, execBlockL_nil, pure_bind]
  · intro w m
    have hptr : eval c' (("_i", .u64 i) :: ("ptr", .i64 ptr) :: put e s m) none (.var "ptr") = ((pure ptr : Res I64) >>= fun a => pure (.i64 a)) := by
      run_src
    have hst : Has (("_i", .u64 i) :: ("ptr", .i64 ptr) :: put e s m) "state" (.words64 s.toArray) :=
      ((hsh.has_state s m).cons (by decide) _).cons (by decide) _
    have hma : Has (("_i", .u64 i) :: ("ptr", .i64 ptr) :: put e s m) "whole_matrix" (.words64 m) :=
      ((hsh.has_matrix s m).cons (by decide) _).cons (by decide) _
    have hv : evalL c (("_i", .u64 i) :: ("ptr", .i64 ptr) :: put e s m) none (stateE w) = ((pure s[w] : Logged U64) >>= fun x => pure (.u64 x)) := by
      rw [evalL_stateE hc.toSeen hst w (by omega), pure_bind]
      rfl
    have he := eval_word hc.plain hptr w
    rw [pure_bind] at he
    rw [execL_setCell hc.toSeen hc.plain.width hv (hush_word (by rfl) w) he hma]
    simp only [pure_bind, bind_assoc, quiet_bind, quiet_pure]
    refine bind_congr fun j => ?_
    refine bind_congr fun m' => ?_
    rw [Env.upd_cons (by decide), Env.upd_cons (by decide), put_matrix]

theorem execL_row0 (hc : MainSeen c c' u p N) (rest : List Stmt) (pw : BitVec 64) (s : State) (m : Matrix) (v : SetupVars) :
    execBlockL c (row0Stmts N ++ rest) (F.sponge u pw s m v) =
      (quiet (isub p F.n_cols 1) >>= fun a => quiet (imul p a BLOCKLENINT64) >>= fun ptr =>
        Model.Log.forLoop 0 F.n_cols.toNat (fun _ (r : State × Matrix × I64) => do
          let m ← Model.Log.unroll12 (fun w m => do
            let i ← quiet (iadd p r.2.2 (BitVec.ofNat 64 w))
            Model.Log.put m (Model.Target.usz u i) r.1[w]) r.2.1
          let s ← Model.Log.round r.1
          pure (s, m, r.2.2 - BLOCKLENINT64)) (s, m, ptr) >>= fun r =>
        execBlockL c rest (("ptr", .i64 r.2.2) :: F.sponge u pw r.1 r.2.1 v)) := by
  have h1 := execBlockL_quiet hc.toSeen (a := [.letVar "ptr" none (.bin .mul (.bin .sub (.cast (.var "n_cols") .i64) (.lit 1)) (.const N.blk))])
    (env := F.sponge u pw s m v) (m := isub p F.n_cols 1 >>= fun a => imul p a BLOCKLENINT64) (f := fun ptr => ("ptr", .i64 ptr) :: F.sponge u pw s m v)
    (by simp [hushSs, hushS, hushE, hc.quietBlk])
    (by run_src [Frame.sponge, Frame.input, Frame.outer, hc.main.isBlk, hc.main.width, hc.main.prof]; rfl)
    (.forIn "_i" (.lit 0) (.var "n_cols") false (row0Cols N.blk N.red) :: rest)
  rw [show row0Stmts N ++ rest = [.letVar "ptr" none (.bin .mul (.bin .sub (.cast (.var "n_cols") .i64) (.lit 1)) (.const N.blk))] ++
    (.forIn "_i" (.lit 0) (.var "n_cols") false (row0Cols N.blk N.red) :: rest) from rfl, h1]
  simp only [quiet_bind, bind_assoc]
  refine bind_congr fun a => ?_
  refine bind_congr fun ptr => ?_
  refine execBlockL_next (f := fun r : State × Matrix × I64 => ("ptr", .i64 r.2.2) :: F.sponge u pw r.1 r.2.1 v) ?_
  rw [execL_for_u64 hc.toSeen (n := F.n_cols) "_i" _ (by rfl)]
  rw [forLoopL_map (fun r : State × Matrix × I64 => ("ptr", .i64 r.2.2) :: F.sponge u pw r.1 r.2.1 v) 0 F.n_cols.toNat
    (fun _ (r : State × Matrix × I64) => do
          let m ← Model.Log.unroll12 (fun w m => do
            let i ← quiet (iadd p r.2.2 (BitVec.ofNat 64 w))
            Model.Log.put m (Model.Target.usz u i) r.1[w]) r.2.1
          let s ← Model.Log.round r.1
          pure (s, m, r.2.2 - BLOCKLENINT64)) _ _ (s, m, ptr)]
  · simp only [bind_assoc, pure_bind]
  · intro k r _ _
    have h := execL_row0Cols hc.toLyraSeen (e := F.sponge u pw r.1 r.2.1 v) ⟨⟨_, by rfl⟩, ⟨_, by rfl⟩⟩ (BitVec.ofNat 64 k) r.2.2 r.1 r.2.1
    simp only [put_sponge] at h
    refine (forBodyL_next (f := fun q : State × Matrix => ("ptr", .i64 (r.2.2 - BLOCKLENINT64)) :: F.sponge u pw q.1 q.2 v) (fun _ => ?_) h).trans ?_
    · rw [List.length_cons, List.length_cons, sponge_length, sponge_length]
    · simp only [bind_assoc, pure_bind]

/-! ## The other rows -/

theorem execL_row1 (hc : MainSeen c c' u p N) (rest : List Stmt) (ptr : I64) (pw : BitVec 64) (s : State) (m : Matrix) :
    execBlockL c (row1Stmts N ++ rest) (("ptr", .i64 ptr) :: F.sponge u pw s m SetupVars.start) =
      (Model.LogTarget.duplexRow1 u p F.n_cols F.rl s m >>= fun r => execBlockL c rest (F.work u ptr pw r.1 r.2 SetupVars.start)) := by
  unfold row1Stmts
  simp only [List.cons_append, List.nil_append]
  have h := execL_row1Cols hc.toLyraSeen (e := ("ptr", .i64 ptr) :: F.sponge u pw s m SetupVars.start) (n_cols := F.n_cols) (rl := F.rl)
    ⟨⟨_, by rfl⟩, ⟨_, by rfl⟩⟩ (by rfl) (by rfl) s m
  rw [show put (("ptr", .i64 ptr) :: F.sponge u pw s m SetupVars.start) s m = ("ptr", .i64 ptr) :: F.sponge u pw s m SetupVars.start from rfl] at h
  rw [execBlockL_next h]
  refine bind_congr fun r => ?_
  rw [show put (("ptr", .i64 ptr) :: F.sponge u pw s m SetupVars.start) r.1 r.2 = ("ptr", .i64 ptr) :: F.sponge u pw r.1 r.2 SetupVars.start from rfl]
  refine execBlockL_next_quiet hc.toSeen (by rfl) ?_
  run_src [Frame.work, Frame.sponge, Frame.input, Frame.outer]
  rfl

/-- A `for` loop over `i64`. -/
theorem execL_for_i64_from (hc : Seen c c') {env : Env} {lo hi : Expr} {a n : I64} (x : String) (body : List Stmt) (hh1 : hushE quietVar quietFn lo = true)
    (hh2 : hushE quietVar quietFn hi = true) (h1 : eval c' env none lo = pure (.i64 a)) (h2 : eval c' env none hi = pure (.i64 n)) :
    execL c (.forIn x lo hi false body) env =
      (Model.Log.forLoop 0 (irangeLen a n) (forBodyL c x (fun k => .i64 (BitVec.ofInt 64 (a.toInt + k))) body) env >>= fun env => pure (.next env)) := by
  rw [execL, evalL_hush hc.toHush env none _ hh1, evalL_hush hc.toHush env none _ hh2, h1, h2]
  simp only [quiet_pure, pure_bind, num_i64, note_one _ (hc.range _)]
  have e1 : (n.toInt - a.toInt + (if false = true then 1 else 0)).toNat = irangeLen a n := by
    simp [irangeLen]
  rw [e1]
  rfl

theorem execL_setup (hc : MainSeen c c' u p N) (ptr : I64) (pw : BitVec 64) (s : State) (m : Matrix) (v : SetupVars) :
    execL c (.forIn "_x" (.var "_x") (.cast (.var "n_rows") .i64) false (setupBody N)) (F.work u ptr pw s m v) =
      (Model.Log.forLoop 0 (irangeLen 2 F.n_rows) (fun _ (r : State × Matrix × SetupVars) => do
        let q ← Model.LogTarget.duplexRowSetup u p F.n_cols F.rl r.2.2.prev r.2.2.rowa r.2.2.row r.1 r.2.1
        let v ← quiet (r.2.2.next p)
        pure (q.1, q.2, v)) (s, m, v) >>= fun r => pure (.next (F.work u ptr pw r.1 r.2.1 r.2.2))) := by
  rw [execL_for_i64_from hc.toSeen (a := 2) (n := F.n_rows) "_x" _ (by rfl) (by rfl) (by rfl) (by run_src [Frame.work, Frame.sponge, Frame.input, Frame.outer])]
  rw [forLoopL_map (fun r : State × Matrix × SetupVars => F.work u ptr pw r.1 r.2.1 r.2.2) 0 (irangeLen 2 F.n_rows)
    (fun _ (r : State × Matrix × SetupVars) => do
        let q ← Model.LogTarget.duplexRowSetup u p F.n_cols F.rl r.2.2.prev r.2.2.rowa r.2.2.row r.1 r.2.1
        let v ← quiet (r.2.2.next p)
        pure (q.1, q.2, v)) _ _ (s, m, v)]
  · simp only [bind_assoc, pure_bind]
  · intro k r _ _
    obtain ⟨s, m, v⟩ := r
    simp only
    generalize hx : Val.i64 (BitVec.ofInt 64 ((2 : BitVec 64).toInt + k)) = x
    have h := execL_setupCols hc.toLyraSeen (e := ("_x", x) :: F.work u ptr pw s m v) (n_cols := F.n_cols) (rl := F.rl) (prev := v.prev) (rowa := v.rowa) (row := v.row)
      ⟨⟨⟨_, by rfl⟩, ⟨_, by rfl⟩⟩, by rfl, by rfl, by rfl, by rfl, by rfl⟩ s m
    rw [show put (("_x", x) :: F.work u ptr pw s m v) s m = ("_x", x) :: F.work u ptr pw s m v from rfl] at h
    refine (forBodyL_next (m := Model.LogTarget.duplexRowSetup u p F.n_cols F.rl v.prev v.rowa v.row s m >>= fun q => quiet (v.next p) >>= fun v => pure (q.1, q.2, v))
        (f := fun r : State × Matrix × SetupVars => F.work u ptr pw r.1 r.2.1 r.2.2) (fun _ => rfl) ?_)
    rw [hx, setupBody, execBlockL_next h]
    simp only [bind_assoc, pure_bind]
    refine bind_congr fun q => ?_
    rw [execBlockL_hush hc.toHush _ _ (by rfl)]
    rw [show put (("_x", x) :: F.work u ptr pw s m v) q.1 q.2 = ("_x", x) :: F.work u ptr pw q.1 q.2 v from rfl, exec_nextStmts hc.main x ptr pw q.1 q.2 v, quiet_bind]
    rfl

/-! ## Wandering -/

theorem execL_visit (hc : MainSeen c c' u p N) (t : Val) (ptr : I64) (pw : BitVec 64) (window gap step : I64) (w : WanderVars) :
    execBlockL c (visitStmts N) (("_tau", t) :: F.wander u ptr pw window gap step w) =
      (Model.LogTarget.wanderBody u p F.n_rows F.n_cols F.rl step w >>= fun x => pure (flowOf (fun w => ("_tau", t) :: F.wander u ptr pw window gap step w) x)) := by
  have h1 := execBlockL_quiet hc.toSeen
    (a := [.assign (.var "rowa") (.cast (.bin .and (.index (.var "state") (.lit 0)) (.bin .sub (.var "n_rows") (.lit 1))) .i64)])
    (env := ("_tau", t) :: F.wander u ptr pw window gap step w) (m := usub p F.n_rows 1)
    (f := fun a => ("_tau", t) :: F.wander u ptr pw window gap step { w with rowa := w.state[0] &&& a }) (by rfl)
    (by run_src [Frame.wander, Frame.work, Frame.sponge, Frame.input, Frame.outer, hc.main.width, hc.main.prof]; rfl)
    (.forIn "_i" (.lit 0) (.var "n_cols") false (wanderCols N.blk N.red) :: afterCols)
  rw [show visitStmts N = [.assign (.var "rowa") (.cast (.bin .and (.index (.var "state") (.lit 0)) (.bin .sub (.var "n_rows") (.lit 1))) .i64)] ++
    (.forIn "_i" (.lit 0) (.var "n_cols") false (wanderCols N.blk N.red) :: afterCols) from rfl, h1, Model.LogTarget.wanderBody]
  simp only [bind_assoc]
  refine bind_congr fun a => ?_
  generalize w.state[0] &&& a = rowa
  have h := execL_wanderCols hc.toLyraSeen (e := ("_tau", t) :: F.wander u ptr pw window gap step { w with rowa := rowa }) (n_cols := F.n_cols) (rl := F.rl) (prev := w.prev)
    (rowa := rowa) (row := w.row) ⟨⟨⟨_, by rfl⟩, ⟨_, by rfl⟩⟩, by rfl, by rfl, by rfl, by rfl, by rfl⟩ w.state w.m
  rw [show put (("_tau", t) :: F.wander u ptr pw window gap step { w with rowa := rowa }) w.state w.m =
    ("_tau", t) :: F.wander u ptr pw window gap step { w with rowa := rowa } from rfl] at h
  rw [execBlockL_next h]
  refine bind_congr fun q => ?_
  rw [show put (("_tau", t) :: F.wander u ptr pw window gap step { w with rowa := rowa }) q.1 q.2 =
    ("_tau", t) :: F.wander u ptr pw window gap step { w with rowa := rowa, state := q.1, m := q.2 } from rfl]
  rw [execBlockL_hush hc.toHush _ _ (by rfl), exec_afterCols hc.main]
  simp only [quiet_bind, quiet_pure]
  refine bind_congr fun a => ?_
  refine bind_congr fun b => ?_
  split <;> rw [pure_bind]

/-- `loop` whose body acts on an image of the state. -/
theorem loopL_map {ε σ τ β γ : Type} {body : σ → LoggedOf ε (σ ⊕ β)} {body' : τ → LoggedOf ε (τ ⊕ γ)} (f : σ → τ) (g : β → γ)
    (h : ∀ s, (body s >>= fun x => pure (x.map f g)) = body' (f s)) (s : σ) :
    (Model.Log.loop body s >>= fun b => pure (g b)) = Model.Log.loop body' (f s) := by
  funext log
  have key := loop_map (body := Model.Log.roundOf body) (body' := Model.Log.roundOf body') (fun x : σ × List ε => (f x.1, x.2)) (fun x : β × List ε => (g x.1, x.2))
    (fun x => by
      have h' : (body x.1 x.2 >>= fun r => pure (r.1.map f g, r.2)) = body' (f x.1) x.2 := congrFun (h x.1) x.2
      unfold Model.Log.roundOf
      rw [← h', bind_assoc, bind_assoc]
      refine bind_congr fun r => ?_
      obtain ⟨r, l⟩ := r
      cases r <;> rfl) (s, log)
  exact key

/-- `loop` whose body acts on an image of the state. -/
theorem execL_loop {W : Type} {body : List Stmt} {step : W → Logged (W ⊕ W)} (f : W → Env) (n : Nat) (hlen : ∀ w, (f w).length = n)
    (h : ∀ w, execBlockL c body (f w) = (step w >>= fun x => pure (flowOf f x))) (w : W) :
    execL c (.loop body) (f w) = (Model.Log.loop step w >>= fun w' => pure (.next (f w'))) := by
  have key := loopL_map (body := step) (body' := fun env => do
      match (← execScopeL c env.length body env) with
      | .next env => pure (.inl env)
      | .brk env => pure (.inr env)) f f (fun w => by
    simp only [execScopeL, h, bind_assoc, pure_bind]
    refine bind_congr fun x => ?_
    match x with
    | .inl w' => simp only [flowOf, pure_bind, Sum.map_inl]; rw [leave_self (by rw [hlen, hlen])]
    | .inr w' => simp only [flowOf, pure_bind, Sum.map_inr]; rw [leave_self (by rw [hlen, hlen])]) w
  rw [execL]
  refine (congrArg (fun m : Logged Env => m >>= fun env => pure (Flow.next env)) key.symm).trans ?_
  simp only [bind_assoc, pure_bind]

/-- `for x in 1..=n` over `u64`. -/
theorem execL_for_incl (hc : Seen c c') {env : Env} {hi : String} {n : U64} (x : String) (body : List Stmt) (h : Has env hi (.u64 n)) :
    execL c (.forIn x (.lit 1) (.var hi) true body) env =
      (Model.Log.forLoop 0 n.toNat (forBodyL c x (fun k => .u64 (BitVec.ofNat 64 (k + 1))) body) env >>= fun env => pure (.next env)) := by
  rw [execL, evalL_hush hc.toHush env none _ (by rfl), evalL_hush hc.toHush env none _ (by rfl), eval, eval_var h, asTy]
  · simp only [quiet_pure, pure_bind, num_lit 1 (by decide), num_u64, ↓reduceIte, note_one _ (hc.range _)]
    have e1 : ((n.toNat : Int) - ((1 : Nat) : Int) + 1).toNat = n.toNat := by simp
    rw [e1]
    have e2 : ∀ k : Nat, rangeVal (.lit ((1 : Nat) : Int)) (.u64 n) (((1 : Nat) : Int) + k) = .u64 (BitVec.ofNat 64 (k + 1)) := by
      intro k
      rw [← Int.natCast_add, Nat.add_comm]
      simp only [rangeVal, BitVec.ofInt_natCast]
    simp only [e2]
    rfl
  · simp

theorem execL_wander (hc : MainSeen c c' u p N) (ptr : I64) (pw : BitVec 64) (window gap step : I64) (w : WanderVars) :
    ∃ m : Logged (WanderVars × I64), (m >>= fun r => pure r.1) = Model.LogTarget.wander u p F.time_cost F.n_rows F.n_cols F.rl w ∧
      execL c (.forIn "_tau" (.lit 1) (.var "time_cost") true (passBody N)) (F.wander u ptr pw window gap step w) =
        (m >>= fun r => pure (.next (F.wander u ptr pw window gap r.2 r.1))) := by
  refine ⟨Model.Log.forLoop 0 F.time_cost.toNat (fun k (r : WanderVars × I64) => quiet (wanderStep p F.n_rows (k + 1)) >>= fun step =>
    Model.Log.loop (Model.LogTarget.wanderBody u p F.n_rows F.n_cols F.rl step) r.1 >>= fun w => pure (w, step)) (w, step), ?_, ?_⟩
  · rw [Model.LogTarget.wander, show (1 : Nat) = 0 + 1 from rfl, forLoopL_shift, ← forLoopL_map Prod.fst]
    intro k r _ _
    simp only [bind_assoc, pure_bind, bind_pure]
  · rw [execL_for_incl hc.toSeen (n := F.time_cost) "_tau" _ (by rfl)]
    rw [forLoopL_map (fun r : WanderVars × I64 => F.wander u ptr pw window gap r.2 r.1) 0 F.time_cost.toNat
      (fun k (r : WanderVars × I64) => quiet (wanderStep p F.n_rows (k + 1)) >>= fun step =>
        Model.Log.loop (Model.LogTarget.wanderBody u p F.n_rows F.n_cols F.rl step) r.1 >>= fun w => pure (w, step)) _ _ (w, step)]
    · simp only [bind_assoc, pure_bind]
    · intro k r _ hk
      refine forBodyL_next (f := fun r : WanderVars × I64 => F.wander u ptr pw window gap r.2 r.1) (fun _ => rfl) ?_
      have ht : (BitVec.ofNat 64 (k + 1)).toNat = k + 1 := by
        have := F.time_cost.isLt
        simp
        omega
      have hs := exec_step (F := F) hc.main [] (BitVec.ofNat 64 (k + 1)) ptr pw window gap r.2 r.1
      rw [passBody, execBlockL_quiet hc.toSeen (by rfl) hs, ht, bind_assoc]
      refine bind_congr fun step => ?_
      rw [execBlockL_next (execL_loop (fun w => ("_tau", .u64 (BitVec.ofNat 64 (k + 1))) :: F.wander u ptr pw window gap step w) 24 (fun _ => rfl)
        (execL_visit hc _ ptr pw window gap step) r.1)]
      simp only [bind_assoc, pure_bind, execBlockL_nil]

/-! ## The end -/

/-- The last statements and the result, in an environment with the variables that they use. -/
theorem finishL_endEnv (hc : MainSeen c c' u p N) {env : Env} {rowa rl : I64} {m : Matrix} {s : State} {k : U64} (h1 : Has env "rowa" (.i64 rowa))
    (h2 : Has env "row_len_int64" (.i64 rl)) (h3 : Has env "whole_matrix" (.words64 m)) (h4 : Has env "state" (.words64 s.toArray)) (h5 : Has env "k" (.u64 k)) :
    finishL c (endStmts N) (.call N.squeeze [.var "state", .var "k"]) env = (Model.LogTarget.wrapUp u p k rl rowa m s >>= fun xs => pure (.bytes xs)) := by
  have hv : eval c' env none (.cast (.bin .mul (.var "rowa") (.var "row_len_int64")) .usize) = ((imul p rowa rl >>= fun a => pure (low u a)) >>= fun j => pure (.usize j)) := by
    unfold Has at h1 h2
    run_src [h1, h2, hc.main.width, hc.main.prof]
  rw [finishL, endStmts, execBlockL_next (execL_split hc.toSeen h3 (by rfl) hv), Model.LogTarget.wrapUp]
  simp only [quiet_bind, quiet_pure, bind_assoc, pure_bind, low_toNat]
  refine bind_congr fun a => ?_
  refine bind_congr fun t => ?_
  rw [execBlockL_next (execL_absorbCall hc.toSeen (h4.cons (by decide) _) (by rfl) hc.main.absorbExt hc.seenAbsorb (hc.callAbsorb _ _))]
  simp only [execBlockL_nil, bind_assoc, pure_bind]
  refine bind_congr fun s' => ?_
  have h6 : evalList c' (Env.upd "state" (.words64 s'.toArray) (("_right", .words64 t) :: env)) [.var "state", .var "k"] = pure [.words64 s'.toArray, .u64 k] := by
    have e1 : Env.get "state" (Env.upd "state" (.words64 s'.toArray) (("_right", .words64 t) :: env)) = pure (.words64 s'.toArray) :=
      (h4.cons (by decide) _).upd_self _
    have e2 : Env.get "k" (Env.upd "state" (.words64 s'.toArray) (("_right", .words64 t) :: env)) = pure (.u64 k) :=
      (h5.cons (by decide) _).upd_ne (by decide) _
    run_src [e1, e2]
  have h7 : c.obs (.call N.squeeze) = [] := by rw [hc.obs, hc.seenSqueeze]
  rw [evalL, evalListL_hush hc.toHush _ _ (by rfl), h6]
  simp only [quiet_pure, pure_bind, if_neg hc.main.squeezeExt, note_one _ h7, hc.callSqueeze]

/-! ## The whole function -/

open Proofs.Log in
theorem writeInputL_erases (p : Profile) (k : U64) (pwd salt : List U8) (T R C : U64) (n : I64) (m : Matrix) :
    Erases (Model.LogTarget.writeInput u p k pwd salt T R C n m) (Model.Target.writeInput u p k pwd salt T R C n m) :=
  .bind (writeWords_erases _ _ _) fun _ => .bind (writeWords_erases _ _ _) fun _ => .bind (.put _ _ _) fun _ => .bind (.put _ _ _) fun _ =>
    .bind (.put _ _ _) fun _ => .bind (.put _ _ _) fun _ => .bind (.put _ _ _) fun _ => .bind (.put _ _ _) fun _ => .bind (.put _ _ _) fun _ =>
    .bind (.quiet _) fun _ => .bind (.quiet _) fun _ => .bind (.get _ _) fun _ => .put _ _ _

theorem finishL_setup (hc : MainSeen c c' u p N) (k : U64) (pwd salt : List U8) (time_cost n_rows n_cols : U64)
    (hp : pwd.length ≤ Model.Target.isizeMax u) (hs : salt.length ≤ Model.Target.isizeMax u) (rest : List Stmt) (result : Expr) (K : I64 → State → Matrix → SetupVars → Logged Val)
    (hK : ∀ rl total blocks ptr pw s m v,
      finishL c rest result (Frame.work u ⟨k, pwd, salt, time_cost, n_rows, n_cols, rl, total, blocks⟩ ptr pw s m v) = K rl s m v) :
    finishL c (setupPart N rest) result
      [("k", .u64 k), ("pwd", .bytes pwd), ("salt", .bytes salt), ("time_cost", .u64 time_cost), ("n_rows", .u64 n_rows), ("n_cols", .u64 n_cols)] =
      (Model.LogTarget.beforeWander u p k pwd salt time_cost n_rows n_cols >>= fun r => K r.1 r.2.1 r.2.2.1 r.2.2.2) := by
  have h0 := exec_prelude (c := c') (F := ⟨k, pwd, salt, time_cost, n_rows, n_cols, 0, 0, 0⟩) []
  rw [List.append_nil] at h0
  rw [finishL, setupPart, execBlockL_append, execBlockL_hush hc.toHush _ _ (by rfl), h0, Model.LogTarget.beforeWander]
  by_cases ht : time_cost.toNat < 1
  · simp only [ht, ↓reduceIte, Res.throw_bind]
    rfl
  by_cases hr : n_rows.toNat < 3
  · simp only [ht, hr, ↓reduceIte, Res.throw_bind]
    rfl
  simp only [ht, hr, ↓reduceIte, pure_bind, execBlock, quiet_pure]
  have h1 := execBlockL_quiet hc.toSeen (a := allocStmts N)
    (m := imul p BLOCKLENINT64 n_cols >>= fun rl => imul p n_rows rl >>= fun i => Model.Target.vecOf u 8 (0 : U64) (Model.Target.usz u i) >>= fun m => pure (rl, i, m))
    (f := fun q => ("whole_matrix", .words64 q.2.2) :: ("_i", .i64 q.2.1) :: ("row_len_int64", .i64 q.1) :: ("_i", .i64 0) ::
      Frame.outer ⟨k, pwd, salt, time_cost, n_rows, n_cols, 0, 0, 0⟩ SetupVars.start)
    (by simp [allocStmts, hushSs, hushS, hushE, hushEs, hushP, hc.quietBlk])
    (by rw [exec_alloc (F := ⟨k, pwd, salt, time_cost, n_rows, n_cols, 0, 0, 0⟩) hc.main [] SetupVars.start]; simp only [bind_assoc, pure_bind])
  rw [h1, Model.Target.allocMatrix]
  simp only [quiet_bind, quiet_pure, bind_assoc, pure_bind]
  refine bind_congr fun rl => ?_
  refine bind_congr fun total => ?_
  refine bind_congr_quiet fun m hm => ?_
  have hm : 8 * m.size ≤ Model.Target.isizeMax u := by
    unfold Model.Target.vecOf at hm
    split at hm
    · rw [← Res.pure_inj hm]
      simpa using ‹_›
    · exact (Res.pure_ne_throw hm.symm).elim
  have h2 := exec_blocks (F := ⟨k, pwd, salt, time_cost, n_rows, n_cols, 0, 0, 0⟩) hc.main hp hs []
    (("whole_matrix", .words64 m) :: ("_i", .i64 total) :: ("row_len_int64", .i64 rl) :: ("_i", .i64 0) ::
      Frame.outer ⟨k, pwd, salt, time_cost, n_rows, n_cols, 0, 0, 0⟩ SetupVars.start) (by rfl) (by rfl)
  rw [execBlockL_quiet hc.toSeen (by simp [blocksStmts, hushSs, hushS, hushE, hushEs, hc.quietSafeBytes, rootOf, quietVar]) h2]
  simp only [bind_assoc]
  refine bind_congr fun blocks => ?_
  have hK := hK rl total blocks
  generalize hF : (⟨k, pwd, salt, time_cost, n_rows, n_cols, rl, total, blocks⟩ : Frame) = F at hK
  have hstart : ("ptr_byte", .usize 0) :: ("n_blocks_input", .i64 blocks) :: ("whole_matrix", .words64 m) :: ("_i", .i64 total) ::
      ("row_len_int64", .i64 rl) :: ("_i", .i64 0) :: Frame.outer ⟨k, pwd, salt, time_cost, n_rows, n_cols, 0, 0, 0⟩ SetupVars.start = F.input 0 m SetupVars.start := by
    rw [← hF]
    rfl
  rw [hstart]
  have ek : k = F.k := by rw [← hF]
  have epwd : pwd = F.pwd := by rw [← hF]
  have esalt : salt = F.salt := by rw [← hF]
  have etime : time_cost = F.time_cost := by rw [← hF]
  have erows : n_rows = F.n_rows := by rw [← hF]
  have ecols : n_cols = F.n_cols := by rw [← hF]
  have erl : rl = F.rl := by rw [← hF]
  have eblocks : blocks = F.blocks := by rw [← hF]
  rw [execL_input hc (epwd ▸ hp) (esalt ▸ hs), ek, epwd, esalt, etime, erows, ecols, eblocks]
  simp only [bind_assoc]
  refine bind_congr_log (fun m' => m'.size = m.size) (fun log m' log' h => ?_) fun m' hsz => ?_
  · have h3 := writeInputL_erases (u := u) p F.k F.pwd F.salt F.time_cost F.n_rows F.n_cols F.blocks m log
    rw [h, pure_bind] at h3
    exact (writeInput_size _ _ _ _ _ _ _ _ _).of_eq_pure h3.symm
  rw [execL_absorb hc _ _ (by rw [hsz]; exact hm), Model.Log.absorbInput]
  simp only [bind_assoc, pure_bind]
  refine bind_congr fun r => ?_
  rw [execL_row0 hc, Model.LogTarget.squeezeRow0]
  simp only [bind_assoc, pure_bind]
  refine bind_congr fun a => ?_
  refine bind_congr fun ptr => ?_
  refine bind_congr fun r => ?_
  rw [execL_row1 hc]
  simp only [bind_assoc]
  rw [← erl]
  refine bind_congr fun q => ?_
  rw [execBlockL_next (execL_setup hc _ _ _ _ _), Model.LogTarget.setupRows, show (2 : Nat) = 0 + 2 from rfl, forLoopL_shift, ← erl]
  simp only [bind_assoc]
  refine bind_congr fun _ => ?_
  exact hK _ _ _ _ _

theorem finishL_rest (hc : MainSeen c c' u p N) (ptr : I64) (pw : BitVec 64) (s : State) (m : Matrix) (v : SetupVars) :
    finishL c (restStmts N) (.call N.squeeze [.var "state", .var "k"]) (F.work u ptr pw s m v) =
      ((Model.LogTarget.wander u p F.time_cost F.n_rows F.n_cols F.rl { state := s, m, prev := v.prev, row := 0, rowa := v.rowa } >>= fun w =>
        Model.LogTarget.wrapUp u p F.k F.rl w.rowa w.m w.state) >>= fun xs => pure (.bytes xs)) := by
  have h1 : exec c' (.assign (.var "row") (.lit 0)) (F.work u ptr pw s m v) =
      pure (.next (F.wander u ptr pw v.window v.gap v.step { state := s, m, prev := v.prev, row := 0, rowa := v.rowa })) := by
    run_src [Frame.wander, Frame.work, Frame.sponge, Frame.input, Frame.outer]
    rfl
  obtain ⟨q, hq, h2⟩ := execL_wander (F := F) hc ptr pw v.window v.gap v.step { state := s, m, prev := v.prev, row := 0, rowa := v.rowa }
  rw [finishL, restStmts, execBlockL_next_quiet hc.toSeen (by rfl) h1, execBlockL_next h2, ← hq]
  simp only [bind_assoc, pure_bind]
  refine bind_congr fun r => ?_
  exact finishL_endEnv hc (by rfl) (by rfl) (by rfl) (by rfl) (by rfl)

theorem finishL_main (hc : MainSeen c c' u p N) (k : U64) (pwd salt : List U8) (time_cost n_rows n_cols : U64)
    (hp : pwd.length ≤ Model.Target.isizeMax u) (hs : salt.length ≤ Model.Target.isizeMax u) :
    finishL c (setupPart N (restStmts N)) (.call N.squeeze [.var "state", .var "k"])
      [("k", .u64 k), ("pwd", .bytes pwd), ("salt", .bytes salt), ("time_cost", .u64 time_cost), ("n_rows", .u64 n_rows), ("n_cols", .u64 n_cols)] =
      (Model.LogTarget.lyra2 u p k pwd salt time_cost n_rows n_cols >>= fun xs => pure (.bytes xs)) := by
  rw [finishL_setup hc k pwd salt time_cost n_rows n_cols hp hs _ _
    (fun rl s m v => (Model.LogTarget.wander u p time_cost n_rows n_cols rl { state := s, m, prev := v.prev, row := 0, rowa := v.rowa } >>= fun w =>
      Model.LogTarget.wrapUp u p k rl w.rowa w.m w.state) >>= fun xs => pure (.bytes xs))
    (fun rl total blocks ptr pw s m v => finishL_rest (F := ⟨k, pwd, salt, time_cost, n_rows, n_cols, rl, total, blocks⟩) hc ptr pw s m v), Model.LogTarget.lyra2]
  simp only [bind_assoc]

/-! ## lyra2 -/

variable {ext : String → Option (List U8 → List U8)} {d : Nat}

theorem lyra2_seen : MainSeen (lctx ext u p (d + 5)) (ctx ext u p (d + 5)) u p lyra2Names where
  toSeen := seen_ctx
  plain := lyra2_ctx.toLyraCtx
  quietBlk := by decide
  seenRed := by rfl
  callRed vs := callL_silent (d := d + 4) "lyra2::reduced_blake2b_lyra" lyra2.reduced_blake2b_lyra vs (by rfl) hush_reduced
  main := lyra2_ctx
  quietSafe64 := by decide
  quietSafeBytes := by decide
  quietInit := by decide
  seenSafe := by rfl
  seenAbsorb := by rfl
  seenSqueeze := by rfl
  callSafe := callL_absorb_safe
  callAbsorb := callL_absorb_block
  callSqueeze := callL_squeeze

theorem callL_lyra2 (k : U64) (pwd salt : List U8) (time_cost n_rows n_cols : U64) (hp : pwd.length ≤ Model.Target.isizeMax u) (hs : salt.length ≤ Model.Target.isizeMax u) :
    callL seen crate ext u p (d + 6) "lyra2::lyra2" [.u64 k, .bytes pwd, .bytes salt, .u64 time_cost, .u64 n_rows, .u64 n_cols] =
      (Model.LogTarget.lyra2 u p k pwd salt time_cost n_rows n_cols >>= fun xs => pure (.bytes xs)) := by
  rw [callL_fn "lyra2::lyra2" lyra2.lyra2 _ (by rfl), ← finishL_main (lyra2_seen (ext := ext) (u := u) (d := d)) k pwd salt time_cost n_rows n_cols hp hs, ← lyra2_body]
  rfl

/-- Arguments that a function turns into the same values of its parameters are the same to it. -/
theorem callL_args (name : String) (f : Fn) (h : crate.find? (·.name = name) = some f) {us vs : List Val} (hb : bindArgs f.params us = bindArgs f.params vs) :
    callL seen crate ext u p (d + 1) name us = callL seen crate ext u p (d + 1) name vs := by
  rw [callL_fn name f _ h, callL_fn name f _ h, runFnL, runFnL, hb]

end Source

import Verif.Proofs.SrcLogPhases

/-! What is seen of `lyra2mod`, as it stands in the source. -/

set_option linter.unusedSectionVars false

namespace Source.Mod
open Rust
open Model.Log (Logged LoggedOf quiet emit)
open Model.Lyra2 (State Matrix SetupVars wanderStep)
open Proofs.Target

variable {c : LCtx Event} {c' : Ctx} {u : Nat} [Width u] {p : Profile} {N : Names} {F : Frame}

local notation "WanderVars" => Model.Lyra2mod.WanderVars

/-- `state[(index as usize) & 0xf]` -/
def pickE : Expr := .index (.var "state") (.bin .and (.cast (.var "index") .usize) (.lit 15))

theorem evalL_pick (hc : Seen c c') (hu : c'.u = u) {env : Env} {s : State} {i : U64} (hs : Has env "state" (.words64 s.toArray)) (hi : Has env "index" (.u64 i)) :
    evalL c env none pickE = ((emit (.state (Model.Target.usz u i &&& 0xf)) >>= fun _ => quiet (aget s (Model.Target.usz u i &&& 0xf))) >>= fun x => pure (.u64 x)) := by
  have h0 : (low u i &&& 15#64).toNat = Model.Target.usz u i &&& 0xf := by
    rw [BitVec.toNat_and, low_toNat]
    rfl
  have h1 : eval c' env none (.bin .and (.cast (.var "index") .usize) (.lit 15)) = pure (.usize (low u i &&& 15#64)) := by
    unfold Has at hi
    run_src [hi, hu]
  unfold pickE
  rw [evalL, evalL_hush hc.toHush env none _ (by rfl), evalL_hush hc.toHush env none _ (by rfl), eval_var hs, h1]
  simp only [quiet_pure, pure_bind, position_usize, h0]
  rw [show rootOf (.var "state") = "state" from rfl, show isComputed (.bin .and (.cast (.var "index") .usize) (.lit 15)) = true from rfl, note_state hc.obs, item_words64,
    vget_aget, quiet_bind, bind_assoc]
  rfl

theorem execL_visit (hc : MainSeen c c' u p N) (t : Val) (ptr : I64) (pw : BitVec 64) (window gap step : I64) (w : WanderVars) :
    execBlockL c (visitStmts N) (("_tau", t) :: wanderEnv u F ptr pw window gap step w) =
      (Model.LogTarget.modWanderBody u p F.n_rows F.n_cols F.rl step w >>= fun x => pure (flowOf (fun w => ("_tau", t) :: wanderEnv u F ptr pw window gap step w) x)) := by
  have h1 : execL c (.assign (.var "index") pickE) (("_tau", t) :: wanderEnv u F ptr pw window gap step w) =
      ((emit (.state (Model.Target.usz u w.index &&& 0xf)) >>= fun _ => quiet (aget w.state (Model.Target.usz u w.index &&& 0xf))) >>= fun index =>
        pure (.next (("_tau", t) :: wanderEnv u F ptr pw window gap step { w with index := index }))) := by
    rw [execL, evalL_pick hc.toSeen hc.main.width (s := w.state) (i := w.index) (by rfl) (by rfl)]
    simp only [bind_assoc, pure_bind, placeL]
    refine bind_congr fun _ => ?_
    refine bind_congr fun x => ?_
    rw [hc.writes (l := .var "index") (by rfl)]
    rfl
  have h2 : ∀ index, execL c (.assign (.var "rowa") (.cast (.bin .and pickE (.bin .sub (.var "n_rows") (.lit 1))) .i64))
      (("_tau", t) :: wanderEnv u F ptr pw window gap step { w with index := index }) =
      ((emit (.state (Model.Target.usz u index &&& 0xf)) >>= fun _ => quiet (aget w.state (Model.Target.usz u index &&& 0xf)) >>= fun x => quiet (usub p F.n_rows 1) >>= fun a => pure (x &&& a)) >>= fun rowa =>
        pure (.next (("_tau", t) :: wanderEnv u F ptr pw window gap step { w with index := index, rowa := rowa }))) := by
    intro index
    have h3 : eval c' (("_tau", t) :: wanderEnv u F ptr pw window gap step { w with index := index }) none (.bin .sub (.var "n_rows") (.lit 1)) =
        (usub p F.n_rows 1 >>= fun a => pure (.u64 a)) := by
      run_src [wanderEnv, Frame.work, Frame.sponge, Frame.input, Frame.outer, hc.main.width, hc.main.prof]
      rfl
    rw [execL, evalL, evalL, evalL_pick hc.toSeen hc.main.width (s := w.state) (i := index) (by rfl) (by rfl), evalL_hush hc.toHush _ none (.bin .sub _ _) (by rfl), h3]
    simp only [bind_assoc, pure_bind, placeL, quiet_bind, quiet_pure]
    refine bind_congr fun _ => ?_
    refine bind_congr fun x => ?_
    refine bind_congr fun a => ?_
    rw [hc.toHush.op, show binOp c.u c.p .and (.u64 x) (.u64 a) = pure (.u64 (x &&& a)) from rfl]
    simp only [quiet_pure, pure_bind, show asTy none (Val.u64 (x &&& a)) = pure (Val.u64 (x &&& a)) from rfl, num_u64]
    rw [hc.writes (l := .var "rowa") (by rfl)]
    run_src [wanderEnv, Frame.work, Frame.sponge, Frame.input, Frame.outer]
    rfl
  rw [show visitStmts N = .assign (.var "index") pickE :: .assign (.var "rowa") (.cast (.bin .and pickE (.bin .sub (.var "n_rows") (.lit 1))) .i64) ::
    .forIn "_i" (.lit 0) (.var "n_cols") false (wanderCols N.blk N.red) :: afterCols from rfl, execBlockL_next h1, Model.LogTarget.modWanderBody]
  simp only [bind_assoc]
  refine bind_congr fun _ => ?_
  refine bind_congr fun index => ?_
  rw [execBlockL_next (h2 index)]
  simp only [bind_assoc, pure_bind]
  refine bind_congr fun _ => ?_
  refine bind_congr fun x => ?_
  refine bind_congr fun a => ?_
  generalize x &&& a = rowa
  have h := execL_wanderCols hc.toLyraSeen (e := ("_tau", t) :: wanderEnv u F ptr pw window gap step { w with index := index, rowa := rowa }) (n_cols := F.n_cols) (rl := F.rl) (prev := w.prev)
    (rowa := rowa) (row := w.row) ⟨⟨⟨_, by rfl⟩, ⟨_, by rfl⟩⟩, by rfl, by rfl, by rfl, by rfl, by rfl⟩ w.state w.m
  rw [show put (("_tau", t) :: wanderEnv u F ptr pw window gap step { w with index := index, rowa := rowa }) w.state w.m =
    ("_tau", t) :: wanderEnv u F ptr pw window gap step { w with index := index, rowa := rowa } from rfl] at h
  rw [execBlockL_next h]
  refine bind_congr fun q => ?_
  rw [show put (("_tau", t) :: wanderEnv u F ptr pw window gap step { w with index := index, rowa := rowa }) q.1 q.2 =
    ("_tau", t) :: wanderEnv u F ptr pw window gap step { w with index := index, rowa := rowa, state := q.1, m := q.2 } from rfl]
  rw [execBlockL_hush hc.toHush _ _ (by rfl), exec_afterCols hc.main]
  simp only [quiet_bind, quiet_pure]
  refine bind_congr fun a => ?_
  refine bind_congr fun b => ?_
  split <;> rw [pure_bind]

theorem execL_wander (hc : MainSeen c c' u p N) (ptr : I64) (pw : BitVec 64) (window gap step : I64) (w : WanderVars) :
    ∃ m : Logged (WanderVars × I64), (m >>= fun r => pure r.1) = Model.LogTarget.modWander u p F.time_cost F.n_rows F.n_cols F.rl w ∧
      execL c (.forIn "_tau" (.lit 1) (.var "time_cost") true (passBody N)) (wanderEnv u F ptr pw window gap step w) =
        (m >>= fun r => pure (.next (wanderEnv u F ptr pw window gap r.2 r.1))) := by
  refine ⟨Model.Log.forLoop 0 F.time_cost.toNat (fun k (r : WanderVars × I64) => quiet (wanderStep p F.n_rows (k + 1)) >>= fun step =>
    Model.Log.loop (Model.LogTarget.modWanderBody u p F.n_rows F.n_cols F.rl step) r.1 >>= fun w => pure (w, step)) (w, step), ?_, ?_⟩
  · rw [Model.LogTarget.modWander, show (1 : Nat) = 0 + 1 from rfl, forLoopL_shift, ← forLoopL_map Prod.fst]
    intro k r _ _
    simp only [bind_assoc, pure_bind, bind_pure]
  · rw [execL_for_incl hc.toSeen (n := F.time_cost) "_tau" _ (by rfl)]
    rw [forLoopL_map (fun r : WanderVars × I64 => wanderEnv u F ptr pw window gap r.2 r.1) 0 F.time_cost.toNat
      (fun k (r : WanderVars × I64) => quiet (wanderStep p F.n_rows (k + 1)) >>= fun step =>
        Model.Log.loop (Model.LogTarget.modWanderBody u p F.n_rows F.n_cols F.rl step) r.1 >>= fun w => pure (w, step)) _ _ (w, step)]
    · simp only [bind_assoc, pure_bind]
    · intro k r _ hk
      refine forBodyL_next (f := fun r : WanderVars × I64 => wanderEnv u F ptr pw window gap r.2 r.1) (fun _ => rfl) ?_
      have ht : (BitVec.ofNat 64 (k + 1)).toNat = k + 1 := by
        have := F.time_cost.isLt
        simp
        omega
      have hs := exec_step (F := F) hc.main [] (BitVec.ofNat 64 (k + 1)) ptr pw window gap r.2 r.1
      rw [passBody, execBlockL_quiet hc.toSeen (by rfl) hs, ht, bind_assoc]
      refine bind_congr fun step => ?_
      rw [execBlockL_next (execL_loop (fun w => ("_tau", .u64 (BitVec.ofNat 64 (k + 1))) :: wanderEnv u F ptr pw window gap step w) 25 (fun _ => rfl)
        (execL_visit hc _ ptr pw window gap step) r.1)]
      simp only [bind_assoc, pure_bind, execBlockL_nil]

theorem finishL_rest (hc : MainSeen c c' u p N) (ptr : I64) (pw : BitVec 64) (s : State) (m : Matrix) (v : SetupVars) :
    finishL c (restStmts N) (.call N.squeeze [.var "state", .var "k"]) (F.work u ptr pw s m v) =
      ((Model.LogTarget.modWander u p F.time_cost F.n_rows F.n_cols F.rl { state := s, m, prev := v.prev, row := 0, rowa := v.rowa, index := 0 } >>= fun w =>
        Model.LogTarget.wrapUp u p F.k F.rl w.rowa w.m w.state) >>= fun xs => pure (.bytes xs)) := by
  have h1 := execBlockL_quiet hc.toSeen (a := [.letVar "index" (some (.int .u64)) (.lit 0), .assign (.var "row") (.lit 0)]) (env := F.work u ptr pw s m v)
    (m := (pure () : Res Unit)) (f := fun _ => wanderEnv u F ptr pw v.window v.gap v.step { state := s, m, prev := v.prev, row := 0, rowa := v.rowa, index := 0 }) (by rfl)
    (by run_src [wanderEnv, Frame.work, Frame.sponge, Frame.input, Frame.outer]; rfl)
    (.forIn "_tau" (.lit 1) (.var "time_cost") true (passBody N) :: endStmts N)
  obtain ⟨q, hq, h2⟩ := execL_wander (F := F) hc ptr pw v.window v.gap v.step { state := s, m, prev := v.prev, row := 0, rowa := v.rowa, index := 0 }
  rw [finishL, show restStmts N = [.letVar "index" (some (.int .u64)) (.lit 0), .assign (.var "row") (.lit 0)] ++
    (.forIn "_tau" (.lit 1) (.var "time_cost") true (passBody N) :: endStmts N) from rfl, h1, quiet_pure, pure_bind, execBlockL_next h2, ← hq]
  simp only [bind_assoc, pure_bind]
  refine bind_congr fun r => ?_
  exact finishL_endEnv hc (by rfl) (by rfl) (by rfl) (by rfl) (by rfl)

theorem finishL_main (hc : MainSeen c c' u p N) (k : U64) (pwd salt : List U8) (time_cost n_rows n_cols : U64)
    (hp : pwd.length ≤ Model.Target.isizeMax u) (hs : salt.length ≤ Model.Target.isizeMax u) :
    finishL c (setupPart N (restStmts N)) (.call N.squeeze [.var "state", .var "k"])
      [("k", .u64 k), ("pwd", .bytes pwd), ("salt", .bytes salt), ("time_cost", .u64 time_cost), ("n_rows", .u64 n_rows), ("n_cols", .u64 n_cols)] =
      (Model.LogTarget.lyra2mod u p k pwd salt time_cost n_rows n_cols >>= fun xs => pure (.bytes xs)) := by
  rw [finishL_setup hc k pwd salt time_cost n_rows n_cols hp hs _ _
    (fun rl s m v => (Model.LogTarget.modWander u p time_cost n_rows n_cols rl { state := s, m, prev := v.prev, row := 0, rowa := v.rowa, index := 0 } >>= fun w =>
      Model.LogTarget.wrapUp u p k rl w.rowa w.m w.state) >>= fun xs => pure (.bytes xs))
    (fun rl total blocks ptr pw s m v => finishL_rest (F := ⟨k, pwd, salt, time_cost, n_rows, n_cols, rl, total, blocks⟩) hc ptr pw s m v), Model.LogTarget.lyra2mod]
  simp only [bind_assoc]

variable {ext : String → Option (List U8 → List U8)} {d : Nat}

theorem mod_seen : MainSeen (lctx ext u p (d + 5)) (ctx ext u p (d + 5)) u p modNames where
  toSeen := seen_ctx
  plain := mod_ctx.toLyraCtx
  quietBlk := by decide
  seenRed := by rfl
  callRed vs := callL_silent (d := d + 4) "lyra2mod::reduced_blake2b_lyra" lyra2mod.reduced_blake2b_lyra vs (by rfl) hush_reduced
  main := mod_ctx
  quietSafe64 := by decide
  quietSafeBytes := by decide
  quietInit := by decide
  seenSafe := by rfl
  seenAbsorb := by rfl
  seenSqueeze := by rfl
  callSafe := callL_absorb_safe
  callAbsorb := callL_absorb_block
  callSqueeze := callL_squeeze

theorem callL_lyra2mod (k : U64) (pwd salt : List U8) (time_cost n_rows n_cols : U64) (hp : pwd.length ≤ Model.Target.isizeMax u)
    (hs : salt.length ≤ Model.Target.isizeMax u) :
    callL seen crate ext u p (d + 6) "lyra2mod::lyra2mod" [.u64 k, .bytes pwd, .bytes salt, .u64 time_cost, .u64 n_rows, .u64 n_cols] =
      (Model.LogTarget.lyra2mod u p k pwd salt time_cost n_rows n_cols >>= fun xs => pure (.bytes xs)) := by
  rw [callL_fn "lyra2mod::lyra2mod" lyra2mod.lyra2mod _ (by rfl), ← finishL_main (mod_seen (ext := ext) (u := u) (d := d)) k pwd salt time_cost n_rows n_cols hp hs, ← mod_body]
  rfl

end Source.Mod

import Verif.Proofs.SrcPhases

/-! The source of `lyra2mod` computes what `Model.Lyra2mod` says. -/

set_option linter.unusedSectionVars false

namespace Source.Mod
open Rust hiding isizeMax usizeAdd vecOf
open Model.Lyra2 (State Matrix SetupVars WanderVars BLOCKLENINT64 BLOCKLENBYTES BLOCKLENBLAKE2SAFEINT64 BLOCKLENBLAKE2SAFEBYTES BLAKE2BIV
  rotr64 round_lyra blake2b_lyra reduced_blake2b_lyra absorb_block_blake2_safe absorb_block init_state absorbInput wanderStep)
open Model.Target hiding lyra2 lyra2rev2 lyra2rev3 lyra2re lyra2z lyra2mod sum
open Model.Utils

variable {u : Nat} [Width u] {p : Profile} {ext : String → Option (List U8 → List U8)} {d : Nat}

set_option maxRecDepth 10000

/-! ## The functions -/

theorem call_BLOCKLENINT64 : call crate ext u p (d + 1) "lyra2mod::BLOCKLENINT64" [] = pure (.i64 BLOCKLENINT64) := by
  rw [call_fn "lyra2mod::BLOCKLENINT64" lyra2mod.BLOCKLENINT64 _ (by rfl)]
  run_src [runFn, lyra2mod.BLOCKLENINT64]
  rfl

theorem call_BLOCKLENBYTES : call crate ext u p (d + 2) "lyra2mod::BLOCKLENBYTES" [] = pure (.i64 BLOCKLENBYTES) := by
  rw [call_fn "lyra2mod::BLOCKLENBYTES" lyra2mod.BLOCKLENBYTES _ (by rfl)]
  run_src [runFn, lyra2mod.BLOCKLENBYTES, call_BLOCKLENINT64]
  rw [show imul p BLOCKLENINT64 8#64 = pure 96 from by cases p <;> rfl]
  rfl

theorem call_SAFEINT64 : call crate ext u p (d + 1) "lyra2mod::BLOCKLENBLAKE2SAFEINT64" [] = pure (.i64 BLOCKLENBLAKE2SAFEINT64) := by
  rw [call_fn "lyra2mod::BLOCKLENBLAKE2SAFEINT64" lyra2mod.BLOCKLENBLAKE2SAFEINT64 _ (by rfl)]
  run_src [runFn, lyra2mod.BLOCKLENBLAKE2SAFEINT64]
  rfl

theorem call_SAFEBYTES : call crate ext u p (d + 2) "lyra2mod::BLOCKLENBLAKE2SAFEBYTES" [] = pure (.i64 BLOCKLENBLAKE2SAFEBYTES) := by
  rw [call_fn "lyra2mod::BLOCKLENBLAKE2SAFEBYTES" lyra2mod.BLOCKLENBLAKE2SAFEBYTES _ (by rfl)]
  run_src [runFn, lyra2mod.BLOCKLENBLAKE2SAFEBYTES, call_SAFEINT64]
  rw [show imul p BLOCKLENBLAKE2SAFEINT64 8#64 = pure 64 from by cases p <;> rfl]
  rfl

theorem call_BLAKE2BIV : call crate ext u p (d + 1) "lyra2mod::BLAKE2BIV" [] = pure (.words64 BLAKE2BIV.toArray) := by
  rw [call_fn "lyra2mod::BLAKE2BIV" lyra2mod.BLAKE2BIV _ (by rfl)]
  run_src [runFn, lyra2mod.BLAKE2BIV]
  rfl

theorem call_rotr64 (w : U64) (c : Nat) (h0 : 0 < c) (h : c < 64) :
    call crate ext u p (d + 1) "lyra2mod::rotr64" [.u64 w, .lit c] = pure (.u64 (rotr64 w c)) := by
  rw [call_fn "lyra2mod::rotr64" lyra2mod.rotr64 _ (by rfl)]
  have hc : (BitVec.ofNat 8 c).toNat = c := by simp; omega
  have hc' : (BitVec.ofNat 8 64 - BitVec.ofNat 8 c).toNat = 64 - c := by rw [BitVec.toNat_sub, hc]; simp; omega
  run_src [runFn, lyra2mod.rotr64, ofLit_u8 c (by omega)]
  rw [shr_u64_u8 w _ (by omega), sub_u8 _ _ (by rw [hc]; simp; omega), pure_bind, pure_bind, shl_u64_u8 w _ (by omega), hc, hc']
  rfl

theorem call_g (a b c d' : U64) : call crate ext u p (d + 2) "lyra2mod::g" [.u64 a, .u64 b, .u64 c, .u64 d'] =
    pure (.words64 (gVec a b c d').toArray) := by
  rw [call_fn "lyra2mod::g" lyra2mod.g _ (by rfl)]
  obtain ⟨v, hv⟩ : ∃ v : Vector U64 4, [a, b, c, d'].toArray = v.toArray ∧ v = #v[a, b, c, d'] := ⟨_, rfl, rfl⟩
  run_src [runFn, lyra2mod.g, hv.1, call_rotr64]
  rw [hv.2]
  rfl

theorem call_round (v : State) : call crate ext u p (d + 3) "lyra2mod::round_lyra" [.words64 v.toArray] = pure (.words64 (round_lyra v).toArray) := by
  rw [call_fn "lyra2mod::round_lyra" lyra2mod.round_lyra _ (by rfl)]
  have hc : ∀ a b c' d', (ctx ext u p (d + 2)).call "lyra2mod::g" [.u64 a, .u64 b, .u64 c', .u64 d'] = pure (.words64 (gVec a b c' d').toArray) :=
    call_g
  simp only [runFn, lyra2mod.round_lyra, bindArgs, asTy, pure_bind]
  rw [exec_group1 _ _ (by decide) hc]
  iterate 8 rw [exec_group _ _ (by decide) hc _ _ _ _ (by decide) (by decide) (by decide) (by decide)]
  run_src
  rfl

theorem call_blake2b (v : State) : call crate ext u p (d + 4) "lyra2mod::blake2b_lyra" [.words64 v.toArray] = pure (.words64 (blake2b_lyra v).toArray) := by
  rw [call_fn "lyra2mod::blake2b_lyra" lyra2mod.blake2b_lyra _ (by rfl)]
  run_src [runFn, lyra2mod.blake2b_lyra, call_round, blake2b_lyra]

theorem call_reduced (v : State) :
    call crate ext u p (d + 4) "lyra2mod::reduced_blake2b_lyra" [.words64 v.toArray] = pure (.words64 (reduced_blake2b_lyra v).toArray) := by
  rw [call_fn "lyra2mod::reduced_blake2b_lyra" lyra2mod.reduced_blake2b_lyra _ (by rfl)]
  run_src [runFn, lyra2mod.reduced_blake2b_lyra, call_round, reduced_blake2b_lyra]

theorem call_init_state : call crate ext u p (d + 2) "lyra2mod::init_state" [] = pure (.words64 init_state.toArray) := by
  rw [call_fn "lyra2mod::init_state" lyra2mod.init_state _ (by rfl)]
  run_src [runFn, lyra2mod.init_state, call_BLAKE2BIV]
  rfl

theorem call_absorb_block (s : State) (w : Array U64) : call crate ext u p (d + 5) "lyra2mod::absorb_block" [.words64 s.toArray, .words64 w] =
    (absorb_block s w >>= fun s' => pure (.words64 s'.toArray)) := by
  rw [call_fn "lyra2mod::absorb_block" lyra2mod.absorb_block _ (by rfl)]
  have h : lyra2mod.absorb_block.body = (List.finRange 12).map (fun k => .assignOp .xor (.index (.var "s") (.lit k)) (.index (.var "w") (.lit k))) ++
    [.assign (.var "s") (.call "lyra2mod::blake2b_lyra" [.var "s"])] := by rfl
  simp only [runFn, h]
  simp only [lyra2mod.absorb_block, bindArgs, asTy, pure_bind]
  rw [execBlock_unroll _ (fun k s => vget w k >>= fun x => pure (s.set k (s[k] ^^^ x))) (fun s : State => [("s", .words64 s.toArray), ("w", .words64 w)])
    (fun k s => exec_absorbWord _ k (by omega) s w)]
  run_src [call_blake2b, absorb_block]

theorem call_absorb_safe (s : State) (w : Array U64) :
    call crate ext u p (d + 5) "lyra2mod::absorb_block_blake2_safe" [.words64 s.toArray, .words64 w] =
    (absorb_block_blake2_safe s w >>= fun s' => pure (.words64 s'.toArray)) := by
  rw [call_fn "lyra2mod::absorb_block_blake2_safe" lyra2mod.absorb_block_blake2_safe _ (by rfl)]
  have h : lyra2mod.absorb_block_blake2_safe.body = (List.finRange 8).map (fun k => .assignOp .xor (.index (.var "s") (.lit k)) (.index (.var "w") (.lit k))) ++
    [.assign (.var "s") (.call "lyra2mod::blake2b_lyra" [.var "s"])] := by rfl
  simp only [runFn, h]
  simp only [lyra2mod.absorb_block_blake2_safe, bindArgs, asTy, pure_bind]
  rw [execBlock_map (List.finRange 8) _ (fun (k : Fin 8) (s : State) => vget w k >>= fun x => pure (s.set k (s[k] ^^^ x))) (fun s : State => [("s", .words64 s.toArray), ("w", .words64 w)])
    (fun k s => exec_absorbWord _ k (by omega) s w)]
  run_src [call_blake2b, absorb_block_blake2_safe]

theorem call_squeeze (s : State) (size : U64) : call crate ext u p (d + 5) "lyra2mod::squeeze" [.words64 s.toArray, .u64 size] =
    (squeeze u p s size >>= fun xs => pure (.bytes xs)) := by
  rw [call_fn "lyra2mod::squeeze" lyra2mod.squeeze _ (by rfl)]
  have hb : lyra2mod.squeeze.block2 = squeezeBody "lyra2mod::BLOCKLENINT64" "lyra2mod::blake2b_lyra" := by rfl
  have hl : ∀ rest : List Stmt, execBlock (ctx ext u p (d + 4)) (lyra2mod.squeeze.body.take 4 ++ rest)
      [("state", .words64 s.toArray), ("output_size", .u64 size)] =
      (vecOf u 1 (0 : U8) (usz u size) >>= fun out => iadd p (idiv size BLOCKLENBYTES) 1 >>= fun jmax =>
        execBlock (ctx ext u p (d + 4)) rest (squeezeEnv jmax size [] out.toList s)) := by
    intro rest
    rw [show lyra2mod.squeeze.body.take 4 ++ rest = _ :: _ :: _ :: _ :: rest from rfl]
    have : 0 < BLOCKLENBYTES.toInt := by decide
    run_src [repeated_u8, call_BLOCKLENBYTES, this]
    rfl
  have hs : lyra2mod.squeeze.body = lyra2mod.squeeze.body.take 4 ++
    [.forIn "_j" (.lit 0) (.var "jmax") false (squeezeBody "lyra2mod::BLOCKLENINT64" "lyra2mod::blake2b_lyra")] := by rfl
  unfold runFn
  rw [show bindArgs lyra2mod.squeeze.params [.words64 s.toArray, .u64 size] = pure [("state", .words64 s.toArray), ("output_size", .u64 size)] from rfl,
    pure_bind, hs, hl, squeeze]
  simp only [bind_assoc]
  refine bind_congr_pure fun out hout => ?_
  refine bind_congr fun jmax => ?_
  have hlen : out.toList.length = usz u size := by
    unfold vecOf at hout
    split at hout
    · rw [← Res.pure_inj hout]; simp
    · exact (Res.pure_ne_throw hout.symm).elim
  rw [execBlock_cons, exec_squeezeLoop rfl call_BLOCKLENINT64 (by decide) call_blake2b jmax size out.toList s hlen]
  simp only [bind_assoc, pure_bind, execBlock]
  rfl

/-! ## Wandering -/

variable {c : Ctx} {N : Names} {F : Frame}

local notation "WanderVars" => Model.Lyra2mod.WanderVars

theorem vget_aget {α : Type} {n : Nat} (v : Vector α n) (i : Nat) : vget v.toArray i = aget v i := by
  unfold vget aget
  by_cases h : i < n
  · simp [h]
  · simp [h]

/-- The variables of the wandering phase. -/
def wanderEnv (u : Nat) (F : Frame) (ptr : I64) (pw : BitVec 64) (window gap step : I64) (w : WanderVars) : Env :=
  ("index", .u64 w.index) :: F.work u ptr pw w.state w.m ⟨w.row, w.prev, w.rowa, step, window, gap⟩

/-- A visit of a row. -/
def visitStmts (N : Names) : List Stmt :=
  .assign (.var "index") (.index (.var "state") (.bin .and (.cast (.var "index") .usize) (.lit 15))) ::
  .assign (.var "rowa") (.cast (.bin .and (.index (.var "state") (.bin .and (.cast (.var "index") .usize) (.lit 15))) (.bin .sub (.var "n_rows") (.lit 1))) .i64) ::
    .forIn "_i" (.lit 0) (.var "n_cols") false (wanderCols N.blk N.red) :: afterCols

theorem exec_afterCols (hc : MainCtx c u p N) (t : Val) (ptr : I64) (pw : BitVec 64) (window gap step : I64) (w : WanderVars) :
    execBlock c afterCols (("_tau", t) :: wanderEnv u F ptr pw window gap step w) =
      (iadd p w.row step >>= fun a => isub p F.n_rows 1 >>= fun b =>
        pure (flowOf (fun w => ("_tau", t) :: wanderEnv u F ptr pw window gap step w)
          (if a &&& b = 0 then .inr { w with prev := w.row, row := a &&& b } else .inl { w with prev := w.row, row := a &&& b }))) := by
  run_src [afterCols, wanderEnv, Frame.work, Frame.sponge, Frame.input, Frame.outer, hc.width, hc.prof]
  refine bind_congr fun a => ?_
  refine bind_congr fun b => ?_
  by_cases h : a &&& b = 0#64
  · rw [show decide (a &&& b = 0#64) = true by simp [h], if_pos (show a &&& b = 0 from h)]
    run_src
    rfl
  · rw [show decide (a &&& b = 0#64) = false by simp [h], if_neg (show ¬ a &&& b = 0 from h)]
    run_src
    rfl

theorem exec_visit (hc : MainCtx c u p N) (t : Val) (ptr : I64) (pw : BitVec 64) (window gap step : I64) (w : WanderVars) :
    execBlock c (visitStmts N) (("_tau", t) :: wanderEnv u F ptr pw window gap step w) =
      (modWanderBody u p F.n_rows F.n_cols F.rl step w >>= fun x => pure (flowOf (fun w => ("_tau", t) :: wanderEnv u F ptr pw window gap step w) x)) := by
  have h0 : ∀ x : U64, (low u x &&& 15#64).toNat = usz u x &&& 0xf := by
    intro x
    rw [BitVec.toNat_and, low_toNat]
    rfl
  have h1 : ∀ rest, execBlock c (.assign (.var "index") (.index (.var "state") (.bin .and (.cast (.var "index") .usize) (.lit 15))) :: 
      .assign (.var "rowa") (.cast (.bin .and (.index (.var "state") (.bin .and (.cast (.var "index") .usize) (.lit 15))) (.bin .sub (.var "n_rows") (.lit 1))) .i64) :: rest)
      (("_tau", t) :: wanderEnv u F ptr pw window gap step w) =
      (aget w.state (usz u w.index &&& 0xf) >>= fun index => aget w.state (usz u index &&& 0xf) >>= fun x => usub p F.n_rows 1 >>= fun a =>
        execBlock c rest (("_tau", t) :: wanderEnv u F ptr pw window gap step { w with index := index, rowa := x &&& a })) := by
    intro rest
    run_src [wanderEnv, Frame.work, Frame.sponge, Frame.input, Frame.outer, hc.width, hc.prof, vget_aget, h0]
    rfl
  rw [visitStmts, h1, modWanderBody]
  simp only [bind_assoc]
  refine bind_congr fun index => ?_
  refine bind_congr fun x => ?_
  refine bind_congr fun a => ?_
  generalize x &&& a = rowa
  have h := exec_wanderCols hc.toLyraCtx (e := ("_tau", t) :: wanderEnv u F ptr pw window gap step { w with index := index, rowa := rowa }) (n_cols := F.n_cols) (rl := F.rl) (prev := w.prev)
    (rowa := rowa) (row := w.row) ⟨⟨⟨_, by rfl⟩, ⟨_, by rfl⟩⟩, by rfl, by rfl, by rfl, by rfl, by rfl⟩ w.state w.m
  rw [show put (("_tau", t) :: wanderEnv u F ptr pw window gap step { w with index := index, rowa := rowa }) w.state w.m =
    ("_tau", t) :: wanderEnv u F ptr pw window gap step { w with index := index, rowa := rowa } from rfl] at h
  rw [execBlock_next h]
  refine bind_congr fun q => ?_
  rw [show put (("_tau", t) :: wanderEnv u F ptr pw window gap step { w with index := index, rowa := rowa }) q.1 q.2 =
    ("_tau", t) :: wanderEnv u F ptr pw window gap step { w with index := index, rowa := rowa, state := q.1, m := q.2 } from rfl]
  rw [exec_afterCols hc]
  refine bind_congr fun a => ?_
  refine bind_congr fun b => ?_
  split <;> rw [pure_bind]

/-- The body of the loop over the passes. -/
def passBody (N : Names) : List Stmt := stepStmts ++ [.loop (visitStmts N)]

theorem exec_step (hc : MainCtx c u p N) (rest : List Stmt) (t : U64) (ptr : I64) (pw : BitVec 64) (window gap step : I64) (w : WanderVars) :
    execBlock c (stepStmts ++ rest) (("_tau", .u64 t) :: wanderEnv u F ptr pw window gap step w) =
      (wanderStep p F.n_rows t.toNat >>= fun step' => execBlock c rest (("_tau", .u64 t) :: wanderEnv u F ptr pw window gap step' w)) := by
  have h2 : (0 : Int) < (2#64).toInt := by decide
  run_src [stepStmts, wanderEnv, Frame.work, Frame.sponge, Frame.input, Frame.outer, hc.width, hc.prof, wanderStep, h2, rem_u64_2, eq_u64]
  refine bind_congr fun s => ?_
  have h : (BitVec.ofNat 64 (t.toNat % 2)).toNat = t.toNat % 2 := by simp; omega
  rw [h, show (0#64).toNat = 0 from rfl]
  by_cases h : t.toNat % 2 = 0
  · rw [show decide (t.toNat % 2 = 0) = true by simp [h], if_pos h, pure_bind]
    run_src
    rfl
  · rw [show decide (t.toNat % 2 = 0) = false by simp [h], if_neg h, pure_bind]
    run_src
    rfl

theorem exec_wander (hc : MainCtx c u p N) (ptr : I64) (pw : BitVec 64) (window gap step : I64) (w : WanderVars) :
    ∃ m : Res (WanderVars × I64), (m >>= fun r => pure r.1) = modWander u p F.time_cost F.n_rows F.n_cols F.rl w ∧
      exec c (.forIn "_tau" (.lit 1) (.var "time_cost") true (passBody N)) (wanderEnv u F ptr pw window gap step w) =
        (m >>= fun r => pure (.next (wanderEnv u F ptr pw window gap r.2 r.1))) := by
  refine ⟨forLoop 0 F.time_cost.toNat (fun k (r : WanderVars × I64) => wanderStep p F.n_rows (k + 1) >>= fun step =>
    loop (modWanderBody u p F.n_rows F.n_cols F.rl step) r.1 >>= fun w => pure (w, step)) (w, step), ?_, ?_⟩
  · rw [modWander, show (1 : Nat) = 0 + 1 from rfl, forLoop_shift, ← forLoop_map Prod.fst]
    intro k r _ _
    simp only [bind_assoc, pure_bind, bind_pure]
  · rw [exec_for_incl (n := F.time_cost) "_tau" _ (by rfl)]
    rw [forLoop_map (fun r : WanderVars × I64 => wanderEnv u F ptr pw window gap r.2 r.1) 0 F.time_cost.toNat
      (fun k (r : WanderVars × I64) => wanderStep p F.n_rows (k + 1) >>= fun step =>
        loop (modWanderBody u p F.n_rows F.n_cols F.rl step) r.1 >>= fun w => pure (w, step)) _ _ (w, step)]
    · simp only [bind_assoc, pure_bind]
    · intro k r _ hk
      refine forBody_next (f := fun r : WanderVars × I64 => wanderEnv u F ptr pw window gap r.2 r.1) (fun _ => rfl) ?_
      have ht : (BitVec.ofNat 64 (k + 1)).toNat = k + 1 := by
        have := F.time_cost.isLt
        simp
        omega
      rw [passBody, exec_step hc, ht, bind_assoc]
      refine bind_congr fun step => ?_
      rw [execBlock_next (exec_loop (fun w => ("_tau", .u64 (BitVec.ofNat 64 (k + 1))) :: wanderEnv u F ptr pw window gap step w) 25 (fun _ => rfl)
        (exec_visit hc _ ptr pw window gap step) r.1)]
      simp only [bind_assoc, pure_bind, execBlock]

theorem finish_end (hc : MainCtx c u p N) (ptr : I64) (pw : BitVec 64) (window gap step : I64) (w : WanderVars) :
    finish c (endStmts N) (.call N.squeeze [.var "state", .var "k"]) (wanderEnv u F ptr pw window gap step w) =
      (wrapUp u p F.k F.rl { state := w.state, m := w.m, prev := w.prev, row := w.row, rowa := w.rowa } >>= fun xs => pure (.bytes xs)) := by
  run_src [finish, endStmts, wanderEnv, Frame.work, Frame.sponge, Frame.input, Frame.outer, hc.width, hc.prof, split_words, hc.isAbsorb, if_neg hc.absorbExt,
    hc.isSqueeze, if_neg hc.squeezeExt, wrapUp]

/-- The rest of the body of `lyra2`. -/
def restStmts (N : Names) : List Stmt :=
  .letVar "index" (some (.int .u64)) (.lit 0) :: .assign (.var "row") (.lit 0) :: .forIn "_tau" (.lit 1) (.var "time_cost") true (passBody N) :: endStmts N

theorem finish_rest (hc : MainCtx c u p N) (ptr : I64) (pw : BitVec 64) (s : State) (m : Matrix) (v : SetupVars) :
    finish c (restStmts N) (.call N.squeeze [.var "state", .var "k"]) (F.work u ptr pw s m v) =
      ((modWander u p F.time_cost F.n_rows F.n_cols F.rl { state := s, m, prev := v.prev, row := 0, rowa := v.rowa, index := 0 } >>= fun w => wrapUp u p F.k F.rl { state := w.state, m := w.m, prev := w.prev, row := w.row, rowa := w.rowa }) >>=
        fun xs => pure (.bytes xs)) := by
  have h1 : ∀ rest, execBlock c (.letVar "index" (some (.int .u64)) (.lit 0) :: .assign (.var "row") (.lit 0) :: rest) (F.work u ptr pw s m v) =
      execBlock c rest (wanderEnv u F ptr pw v.window v.gap v.step { state := s, m, prev := v.prev, row := 0, rowa := v.rowa, index := 0 }) := by
    intro rest
    run_src [wanderEnv, Frame.work, Frame.sponge, Frame.input, Frame.outer]
    rfl
  obtain ⟨q, hq, h2⟩ := exec_wander (F := F) hc ptr pw v.window v.gap v.step { state := s, m, prev := v.prev, row := 0, rowa := v.rowa, index := 0 }
  rw [finish, restStmts, h1, execBlock_next h2, ← hq]
  simp only [bind_assoc, pure_bind]
  refine bind_congr fun r => ?_
  exact finish_end hc _ _ _ _ _ _

theorem finish_main (hc : MainCtx c u p N) (k : U64) (pwd salt : List U8) (time_cost n_rows n_cols : U64)
    (hp : pwd.length ≤ isizeMax u) (hs : salt.length ≤ isizeMax u) :
    finish c (setupPart N (restStmts N)) (.call N.squeeze [.var "state", .var "k"])
      [("k", .u64 k), ("pwd", .bytes pwd), ("salt", .bytes salt), ("time_cost", .u64 time_cost), ("n_rows", .u64 n_rows), ("n_cols", .u64 n_cols)] =
      (Model.Target.lyra2mod u p k pwd salt time_cost n_rows n_cols >>= fun xs => pure (.bytes xs)) := by
  rw [finish_setup hc k pwd salt time_cost n_rows n_cols hp hs _ _
    (fun rl s m v => (modWander u p time_cost n_rows n_cols rl { state := s, m, prev := v.prev, row := 0, rowa := v.rowa, index := 0 } >>= fun w => wrapUp u p k rl { state := w.state, m := w.m, prev := w.prev, row := w.row, rowa := w.rowa }) >>=
        fun xs => pure (.bytes xs))
    (fun rl total blocks ptr pw s m v => finish_rest (F := ⟨k, pwd, salt, time_cost, n_rows, n_cols, rl, total, blocks⟩) hc ptr pw s m v), Model.Target.lyra2mod]
  by_cases ht : time_cost.toNat < 1
  · simp only [ht, ↓reduceIte, Res.throw_bind]
  by_cases hr : n_rows.toNat < 3
  · simp only [ht, hr, ↓reduceIte, Res.throw_bind]
  simp only [ht, hr, ↓reduceIte, bind_assoc]

/-! ## lyra2mod -/

/-- The names of the items that `lyra2mod` uses. -/
def modNames : Names where
  blk := "lyra2mod::BLOCKLENINT64"
  safe64 := "lyra2mod::BLOCKLENBLAKE2SAFEINT64"
  safeBytes := "lyra2mod::BLOCKLENBLAKE2SAFEBYTES"
  init := "lyra2mod::init_state"
  safe := "lyra2mod::absorb_block_blake2_safe"
  absorb := "lyra2mod::absorb_block"
  squeeze := "lyra2mod::squeeze"
  red := "lyra2mod::reduced_blake2b_lyra"

theorem mod_ctx : MainCtx (ctx ext u p (d + 5)) u p modNames where
  width := rfl
  prof := rfl
  isBlk := call_BLOCKLENINT64
  isRed := call_reduced
  notExt := by decide
  isSafe64 := call_SAFEINT64
  isSafeBytes := call_SAFEBYTES
  isInit := call_init_state
  isSafe := call_absorb_safe
  isAbsorb := call_absorb_block
  isSqueeze := call_squeeze
  isRead := call_read_u64_le
  initExt := by decide
  safeExt := by decide
  absorbExt := by decide
  squeezeExt := by decide

theorem mod_body : lyra2mod.lyra2mod.body = setupPart modNames (restStmts modNames) := by rfl

theorem call_lyra2mod (k : U64) (pwd salt : List U8) (time_cost n_rows n_cols : U64) (hp : pwd.length ≤ isizeMax u) (hs : salt.length ≤ isizeMax u) :
    call crate ext u p (d + 6) "lyra2mod::lyra2mod" [.u64 k, .bytes pwd, .bytes salt, .u64 time_cost, .u64 n_rows, .u64 n_cols] =
      (Model.Target.lyra2mod u p k pwd salt time_cost n_rows n_cols >>= fun xs => pure (.bytes xs)) := by
  rw [call_fn "lyra2mod::lyra2mod" lyra2mod.lyra2mod _ (by rfl), ← finish_main (mod_ctx (ext := ext) (d := d)) k pwd salt time_cost n_rows n_cols hp hs, ← mod_body]
  rfl

theorem call_sum (input : List U8) (h : input.length ≤ isizeMax u) :
    call crate ext u p (d + 7) "lyra2mod::sum" [.bytes input] = (Model.Target.modSum u p input >>= fun xs => pure (.bytes xs)) := by
  rw [call_fn "lyra2mod::sum" lyra2mod.sum _ (by rfl)]
  have h1 := call_lyra2mod (u := u) (p := p) (ext := ext) (d := d) 32#64 input input 1#64 4#64 4#64 h h
  run_src [runFn, lyra2mod.sum]
  rw [call_args "lyra2mod::lyra2mod" lyra2mod.lyra2mod (by rfl) (vs := [.u64 32#64, .bytes input, .bytes input, .u64 1#64, .u64 4#64, .u64 4#64]) (by rfl)]
  exact h1

end Source.Mod

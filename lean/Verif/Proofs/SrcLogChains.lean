import Verif.Proofs.SrcChains
import Verif.Proofs.SrcLogErase
import Verif.Proofs.SrcLogMod

/-! What is seen of the `sum` functions and of the chains, as they stand in the source. -/

set_option linter.unusedSectionVars false

namespace Source
open Rust
open Model.Log (Logged LoggedOf quiet emit)
open Proofs.Target
open Model.Chains (Digests)

variable {c : LCtx Event} {c' : Ctx} {u : Nat} [Width u] {p : Profile} {ext : String → Option (List U8 → List U8)} {d : Nat}

/-- A call with arguments of which nothing is seen. -/
theorem evalL_call {env : Env} {want : Option Ty} {f : String} {args : List Expr} {vs : List Val} {g : Logged (List U8)}
    (hcall : callL seen crate ext u p d f vs = (g >>= fun xs => pure (.bytes xs))) (ha : hushEs quietVar quietFn args = true)
    (hv : evalList (ctx ext u p d) env args = pure vs) (hext : f ≠ "Vec::with_capacity") (hf : seen (.call f) = []) :
    evalL (lctx ext u p d) env want (.call f args) = (g >>= fun xs => pure (.bytes xs)) := by
  rw [evalL, evalListL_hush seen_ctx.toHush env _ ha, hv]
  simp only [quiet_pure, pure_bind, if_neg hext]
  rw [note_one _ (show (lctx ext u p d).obs (.call f) = [] from hf)]
  exact hcall

/-- `let x = f(args)`. -/
theorem execL_letCall {env : Env} {x f : String} {args : List Expr} {vs : List Val} {g : Logged (List U8)}
    (hcall : callL seen crate ext u p d f vs = (g >>= fun xs => pure (.bytes xs))) (ha : hushEs quietVar quietFn args = true)
    (hv : evalList (ctx ext u p d) env args = pure vs) (hext : f ≠ "Vec::with_capacity") (hf : seen (.call f) = []) :
    execL (lctx ext u p d) (.letVar x none (.call f args)) env = (g >>= fun xs => pure (.next ((x, .bytes xs) :: env))) := by
  rw [execL, evalL_call hcall ha hv hext hf]
  simp only [bind_assoc, pure_bind]

/-- A function whose body is silent up to its result, which is a call. -/
theorem runFnL_call {f : Fn} {args : List Val} {env env' : Env} {name : String} {es : List Expr} {vs : List Val} {g : Logged (List U8)}
    (hcall : callL seen crate ext u p d name vs = (g >>= fun xs => pure (.bytes xs)))
    (hb : bindArgs f.params args = pure env) (hh : hushSs quietVar quietFn f.body = true) (he : execBlock (ctx ext u p d) f.body env = pure (.next env'))
    (hr : f.result = .call name es) (ha : hushEs quietVar quietFn es = true) (hv : evalList (ctx ext u p d) env' es = pure vs) (hext : name ≠ "Vec::with_capacity")
    (hf : seen (.call name) = []) :
    runFnL (lctx ext u p d) f args = (g >>= fun xs => pure (.bytes xs)) := by
  unfold runFnL
  rw [hb, quiet_pure, pure_bind, execBlockL_hush seen_ctx.toHush _ _ hh, he, quiet_pure, pure_bind, hr]
  exact evalL_call hcall ha hv hext hf

/-! ## The `sum` functions -/

theorem callL_144 (xs ys : List U8) (hx : xs.length ≤ Model.Target.isizeMax u) (hy : ys.length ≤ Model.Target.isizeMax u) :
    callL seen crate ext u p (d + 6) "lyra2::lyra2" [.lit ((32 : Nat) : Int), .bytes xs, .bytes ys, .lit ((1 : Nat) : Int), .lit ((4 : Nat) : Int),
      .lit ((4 : Nat) : Int)] = (Model.LogTarget.lyra2 u p 32 xs ys 1 4 4 >>= fun xs => pure (.bytes xs)) := by
  rw [callL_args "lyra2::lyra2" lyra2.lyra2 (by rfl) (vs := [.u64 32#64, .bytes xs, .bytes ys, .u64 1#64, .u64 4#64, .u64 4#64]) (by rfl)]
  exact callL_lyra2 _ _ _ _ _ _ hx hy

theorem callL_188 (xs ys : List U8) (hx : xs.length ≤ Model.Target.isizeMax u) (hy : ys.length ≤ Model.Target.isizeMax u) :
    callL seen crate ext u p (d + 6) "lyra2::lyra2" [.lit ((32 : Nat) : Int), .bytes xs, .bytes ys, .lit ((1 : Nat) : Int), .lit ((8 : Nat) : Int),
      .lit ((8 : Nat) : Int)] = (Model.LogTarget.lyra2 u p 32 xs ys 1 8 8 >>= fun xs => pure (.bytes xs)) := by
  rw [callL_args "lyra2::lyra2" lyra2.lyra2 (by rfl) (vs := [.u64 32#64, .bytes xs, .bytes ys, .u64 1#64, .u64 8#64, .u64 8#64]) (by rfl)]
  exact callL_lyra2 _ _ _ _ _ _ hx hy

theorem callL_888 (xs ys : List U8) (hx : xs.length ≤ Model.Target.isizeMax u) (hy : ys.length ≤ Model.Target.isizeMax u) :
    callL seen crate ext u p (d + 6) "lyra2::lyra2" [.lit ((32 : Nat) : Int), .bytes xs, .bytes ys, .lit ((8 : Nat) : Int), .lit ((8 : Nat) : Int),
      .lit ((8 : Nat) : Int)] = (Model.LogTarget.lyra2 u p 32 xs ys 8 8 8 >>= fun xs => pure (.bytes xs)) := by
  rw [callL_args "lyra2::lyra2" lyra2.lyra2 (by rfl) (vs := [.u64 32#64, .bytes xs, .bytes ys, .u64 8#64, .u64 8#64, .u64 8#64]) (by rfl)]
  exact callL_lyra2 _ _ _ _ _ _ hx hy

theorem callL_mod144 (xs ys : List U8) (hx : xs.length ≤ Model.Target.isizeMax u) (hy : ys.length ≤ Model.Target.isizeMax u) :
    callL seen crate ext u p (d + 6) "lyra2mod::lyra2mod" [.lit ((32 : Nat) : Int), .bytes xs, .bytes ys, .lit ((1 : Nat) : Int), .lit ((4 : Nat) : Int),
      .lit ((4 : Nat) : Int)] = (Model.LogTarget.lyra2mod u p 32 xs ys 1 4 4 >>= fun xs => pure (.bytes xs)) := by
  rw [callL_args "lyra2mod::lyra2mod" lyra2mod.lyra2mod (by rfl) (vs := [.u64 32#64, .bytes xs, .bytes ys, .u64 1#64, .u64 4#64, .u64 4#64]) (by rfl)]
  exact Mod.callL_lyra2mod _ _ _ _ _ _ hx hy

theorem callL_sum (input : List U8) (h : input.length ≤ Model.Target.isizeMax u) :
    callL seen crate ext u p (d + 7) "lyra2::sum" [.bytes input] = (Model.LogTarget.lyra2Sum u p input >>= fun xs => pure (.bytes xs)) := by
  rw [callL_fn "lyra2::sum" lyra2.sum _ (by rfl)]
  exact runFnL_call (env := [("input", .bytes input)]) (env' := [("input2", .bytes input), ("input", .bytes input)]) (callL_144 input input h h) (by rfl) (by rfl)
    (by run_src [lyra2.sum]) (by rfl) (by rfl) (by run_src) (by decide) (by rfl)

theorem Mod.callL_sum (input : List U8) (h : input.length ≤ Model.Target.isizeMax u) :
    callL seen crate ext u p (d + 7) "lyra2mod::sum" [.bytes input] = (Model.LogTarget.lyra2modSum u p input >>= fun xs => pure (.bytes xs)) := by
  rw [callL_fn "lyra2mod::sum" lyra2mod.sum _ (by rfl)]
  exact runFnL_call (env := [("input", .bytes input)]) (env' := [("input2", .bytes input), ("input", .bytes input)]) (callL_mod144 input input h h) (by rfl) (by rfl)
    (by run_src [lyra2mod.sum]) (by rfl) (by rfl) (by run_src) (by decide) (by rfl)

/-! ## The chains -/

namespace Chains

variable (dg : Digests)

theorem callL_lyra2z (hd : Slices u dg) (input : List U8) :
    callL seen crate (digests dg) u p (d + 7) "lyra2z::sum" [.bytes input] = (Model.LogTarget.lyra2z u p dg input >>= fun xs => pure (.bytes xs)) := by
  rw [callL_fn "lyra2z::sum" lyra2z.sum _ (by rfl)]
  exact runFnL_call (env := [("input", .bytes input)])
    (env' := [("result_blake_2", .bytes (dg.blake256 input)), ("result_blake_1", .bytes (dg.blake256 input)), ("input", .bytes input)])
    (callL_888 _ _ (hd.blake256 input) (hd.blake256 input)) (by rfl) (by decide +kernel)
    (by run_src [lyra2z.sum, call_blake, to_vec_bytes, clone_bytes]) (by rfl) (by rfl) (by run_src) (by decide) (by rfl)

theorem callL_lyra2re (hd : Slices u dg) (input : List U8) :
    callL seen crate (digests dg) u p (d + 7) "lyra2re::sum" [.bytes input] = (Model.LogTarget.lyra2re u p dg input >>= fun xs => pure (.bytes xs)) := by
  rw [callL_fn "lyra2re::sum" lyra2re.sum _ (by rfl)]
  unfold runFnL
  rw [show bindArgs lyra2re.sum.params [.bytes input] = pure [("input", .bytes input)] from rfl, quiet_pure, pure_bind,
    show lyra2re.sum.body = lyra2re.sum.body.take 3 ++ (.letVar "result_lyra2" none (.call "lyra2::lyra2"
      [.lit 32, .var "result_keccak256_1", .var "result_keccak256_2", .lit 1, .lit 8, .lit 8]) :: lyra2re.sum.body.drop 4) from rfl]
  rw [execBlockL_quiet (seen_ctx (ext := digests dg) (u := u)) (m := (pure () : Res Unit)) (f := fun _ => [("result_keccak256_2", .bytes (dg.keccak256 (dg.blake256 input))),
    ("result_keccak256_1", .bytes (dg.keccak256 (dg.blake256 input))), ("result_blake", .bytes (dg.blake256 input)), ("input", .bytes input)]) (by decide +kernel)
    (by rw [show lyra2re.sum.body.take 3 ++ [] = [_, _, _] from rfl]; run_src [call_blake, call_keccak, to_vec_bytes, clone_bytes]), quiet_pure, pure_bind]
  rw [execBlockL_next (execL_letCall (callL_188 _ _ (hd.keccak256 (dg.blake256 input)) (hd.keccak256 (dg.blake256 input))) (by rfl) (by run_src) (by decide) (by rfl)), Model.LogTarget.lyra2re]
  simp only [bind_assoc, pure_bind]
  refine bind_congr fun a => ?_
  rw [execBlockL_hush (seen_ctx (ext := digests dg) (u := u)).toHush _ _ (by decide +kernel), show lyra2re.sum.body.drop 4 = [_] from rfl]
  simp only [evalL_hush (seen_ctx (ext := digests dg) (u := u)).toHush _ _ lyra2re.sum.result (by decide +kernel)]
  run_src [call_skein, call_groestl, lyra2re.sum, to_vec_bytes, quiet_pure]

theorem callL_lyra2rev2 (input : List U8) :
    callL seen crate (digests dg) u p (d + 8) "lyra2rev2::sum" [.bytes input] = (Model.LogTarget.lyra2rev2 u p dg input >>= fun xs => pure (.bytes xs)) := by
  rw [callL_fn "lyra2rev2::sum" lyra2rev2.sum _ (by rfl)]
  unfold runFnL
  rw [show bindArgs lyra2rev2.sum.params [.bytes input] = pure [("input", .bytes input)] from rfl, quiet_pure, pure_bind,
    show lyra2rev2.sum.body = lyra2rev2.sum.body.take 3 ++ (.letVar "result_lyra2" none (.call "lyra2::sum" [.var "result_cube"]) :: lyra2rev2.sum.body.drop 4) from rfl]
  rw [execBlockL_quiet (seen_ctx (ext := digests dg) (u := u)) (m := Model.CubeHash.sum (dg.keccak256 (dg.blake256 input))) (f := fun a => [("result_cube", .bytes a),
    ("result_keccak256", .bytes (dg.keccak256 (dg.blake256 input))), ("result_blake", .bytes (dg.blake256 input)), ("input", .bytes input)]) (by decide +kernel)
    (by rw [show lyra2rev2.sum.body.take 3 ++ [] = [_, _, _] from rfl]; run_src [call_blake, call_keccak, to_vec_bytes, Cube.call_sum]), Model.LogTarget.lyra2rev2]
  simp only [bind_assoc]
  refine bind_congr_quiet fun a ha => ?_
  rw [execBlockL_next (execL_letCall (callL_sum a (small_le (cube_length ha))) (by rfl) (by run_src) (by decide) (by rfl))]
  simp only [bind_assoc]
  refine bind_congr fun b => ?_
  rw [execBlockL_hush (seen_ctx (ext := digests dg) (u := u)).toHush _ _ (by decide +kernel), show lyra2rev2.sum.body.drop 4 = [_, _] from rfl]
  simp only [evalL_hush (seen_ctx (ext := digests dg) (u := u)).toHush _ _ lyra2rev2.sum.result (by decide +kernel)]
  run_src [call_skein, to_vec_bytes, Cube.call_sum, quiet_pure, quiet_bind]
  refine bind_congr_quiet fun e he => ?_
  run_src [lyra2rev2.sum]
  rw [Bmw.call_sum e (by rw [cube_length he]; decide), quiet_bind]
  rfl

theorem callL_lyra2rev3 (hd : Slices u dg) (input : List U8) :
    callL seen crate (digests dg) u p (d + 8) "lyra2rev3::sum" [.bytes input] = (Model.LogTarget.lyra2rev3 u p dg input >>= fun xs => pure (.bytes xs)) := by
  rw [callL_fn "lyra2rev3::sum" lyra2rev3.sum _ (by rfl)]
  unfold runFnL
  rw [show bindArgs lyra2rev3.sum.params [.bytes input] = pure [("input", .bytes input)] from rfl, quiet_pure, pure_bind,
    show lyra2rev3.sum.body = lyra2rev3.sum.body.take 1 ++ (.letVar "result_lyra2_mod_1" none (.call "lyra2mod::sum" [.var "result_blake"]) ::
      ([.letVar "result_cube" none (.call "cubehash::sum" [.var "result_lyra2_mod_1"])] ++
        [.letVar "result_lyra2_mod_2" none (.call "lyra2mod::sum" [.var "result_cube"])])) from rfl]
  rw [execBlockL_quiet (seen_ctx (ext := digests dg) (u := u)) (m := (pure () : Res Unit)) (f := fun _ => [("result_blake", .bytes (dg.blake256 input)), ("input", .bytes input)])
    (by decide +kernel) (by rw [show lyra2rev3.sum.body.take 1 ++ [] = [_] from rfl]; run_src [call_blake, to_vec_bytes]), quiet_pure, pure_bind, Model.LogTarget.lyra2rev3]
  rw [execBlockL_next (execL_letCall (Mod.callL_sum _ (hd.blake256 input)) (by rfl) (by run_src) (by decide) (by rfl))]
  simp only [bind_assoc]
  refine bind_congr fun a => ?_
  rw [execBlockL_quiet (seen_ctx (ext := digests dg) (u := u)) (m := Model.CubeHash.sum a) (f := fun b => [("result_cube", .bytes b), ("result_lyra2_mod_1", .bytes a),
    ("result_blake", .bytes (dg.blake256 input)), ("input", .bytes input)]) (by decide +kernel) (by run_src [Cube.call_sum])]
  simp only [bind_assoc]
  refine bind_congr_quiet fun b hb => ?_
  rw [execBlockL_next (execL_letCall (Mod.callL_sum b (small_le (cube_length hb))) (by rfl) (by run_src) (by decide) (by rfl))]
  simp only [bind_assoc]
  refine bind_congr_log (fun e => e.length = 32) (fun log e log' h => ?_) fun e he => ?_
  · have hb' := small_le (u := u) (cube_length hb)
    have h1 := callL_erases seen crate (digests dg) u p 7 "lyra2mod::sum" [.bytes b] log
    rw [Mod.callL_sum b hb', Mod.call_sum b hb'] at h1
    have h2 : (Model.LogTarget.lyra2modSum u p b >>= fun xs => pure (Val.bytes xs)) log = pure (Val.bytes e, log') := by
      show (Model.LogTarget.lyra2modSum u p b log >>= fun x => pure (Val.bytes x.1, x.2)) = _
      rw [h, pure_bind]
    rw [h2, pure_bind] at h1
    obtain ⟨e', h3, h4⟩ := bind_eq_pure h1.symm
    have h5 := Res.pure_inj h4
    simp only [Val.bytes.injEq] at h5
    rw [← h5]
    exact modSum_length h3
  simp only [execBlockL_nil, pure_bind, evalL_hush (seen_ctx (ext := digests dg) (u := u)).toHush _ _ lyra2rev3.sum.result (by decide +kernel)]
  run_src [lyra2rev3.sum]
  rw [Bmw.call_sum e (by rw [he]; decide), quiet_bind]
  rfl

end Chains

end Source

import Verif.Proofs.SrcLogCols
import Verif.Proofs.SrcMod

/-! What is seen of the sponge functions of `lyra2` and `lyra2mod`, as they stand in the source. -/

namespace Source
open Rust Rust.Res
open Model.Log (Logged LoggedOf quiet emit)
open Model.Lyra2 (State Matrix BLOCKLENINT64 BLOCKLENBYTES blake2b_lyra)
open Model.Utils
open Proofs.Target

set_option maxRecDepth 10000
set_option linter.unusedSectionVars false

variable {c : LCtx Event} {c' : Ctx} {u : Nat} [Width u] {p : Profile} {ext : String → Option (List U8 → List U8)} {d : Nat}

/-! ## The observer -/

theorem deaf : Deaf seen quietVar quietFn where
  read x b k h := by
    simp only [quietVar, Bool.and_eq_true, bne_iff_ne, ne_eq, Bool.not_eq_true', Bool.and_eq_false_iff, beq_eq_false_iff_ne] at h
    simp only [seen]
    rw [if_neg h.1, if_neg]
    rintro ⟨h1, h2⟩
    rcases h.2 with h | h
    · exact h h1
    · rw [h2] at h; cases h
  write x b k h := by
    simp only [quietVar, Bool.and_eq_true, bne_iff_ne, ne_eq, Bool.not_eq_true', Bool.and_eq_false_iff, beq_eq_false_iff_ne] at h
    simp only [seen]
    rw [if_neg h.1, if_neg]
    rintro ⟨h1, h2⟩
    rcases h.2 with h | h
    · exact h h1
    · rw [h2] at h; cases h
  split x k n h := by
    simp only [quietVar, Bool.and_eq_true, bne_iff_ne, ne_eq] at h
    simp only [seen]
    rw [if_neg h.1]
  part a b := rfl
  alloc n := rfl
  divide _ _ := rfl
  shift _ := rfl
  branch b := rfl
  range n := rfl
  called f h := by
    simp only [quietFn, loud, Bool.not_eq_true', List.contains_eq_mem, List.mem_cons, List.not_mem_nil, or_false, decide_eq_false_iff_not, not_or] at h
    simp only [seen]
    rw [if_neg (by rintro (h1 | h1) <;> simp_all), if_neg (by rintro (h1 | h1) <;> simp_all)]

/-- What the functions of the crate call. -/
def lctx (ext : String → Option (List U8 → List U8)) (u : Nat) (p : Profile) (d : Nat) : LCtx Event := ⟨u, p, seen, callL seen crate ext u p d⟩

theorem crate_hush : crate.all (fun f => !quietFn f.name || hushFn quietVar quietFn f) = true := by decide +kernel

theorem seen_ctx : Seen (lctx ext u p d) (ctx ext u p d) where
  width := rfl
  prof := rfl
  read := deaf.read
  write := deaf.write
  split := deaf.split
  part := deaf.part
  alloc := deaf.alloc
  divide := deaf.divide
  shift := deaf.shift
  branch := deaf.branch
  range := deaf.range
  called := deaf.called
  call f vs h := callL_hush deaf crate ext u p crate_hush d f vs h
  obs := rfl

theorem callL_fn (name : String) (f : Fn) (args : List Val) (h : crate.find? (·.name = name) = some f) :
    callL seen crate ext u p (d + 1) name args = runFnL (lctx ext u p d) f args := by
  unfold callL
  rw [h]
  rfl

/-- A function whose call may be seen, but whose body is not. -/
theorem callL_silent (name : String) (f : Fn) (args : List Val) (h : crate.find? (·.name = name) = some f) (hf : hushFn quietVar quietFn f = true) :
    callL seen crate ext u p (d + 1) name args = quiet (call crate ext u p (d + 1) name args) := by
  rw [callL_fn name f args h, call_fn name f args h, runFnL_hush seen_ctx.toHush f args hf]

/-! ## Statements of which nothing is seen -/

theorem execBlockL_append (a b : List Stmt) (env : Env) : execBlockL c (a ++ b) env = (execBlockL c a env >>= fun r => match r with
      | .next env => execBlockL c b env
      | .brk env => pure (.brk env)) := by
  induction a generalizing env with
  | nil => rw [List.nil_append, execBlockL_nil, pure_bind]
  | cons s ss ih =>
    rw [List.cons_append, execBlockL_cons, execBlockL_cons, bind_assoc]
    refine bind_congr fun r => ?_
    match r with
    | .next env => exact ih env
    | .brk env => rw [pure_bind]

/-- Statements of which nothing is seen, before others. -/
theorem execBlockL_quiet {σ : Type} (hc : Seen c c') {a : List Stmt} {env : Env} {m : Res σ} {f : σ → Env} (ha : hushSs quietVar quietFn a = true)
    (h : execBlock c' (a ++ []) env = (m >>= fun x => execBlock c' [] (f x))) (rest : List Stmt) :
    execBlockL c (a ++ rest) env = (quiet m >>= fun x => execBlockL c rest (f x)) := by
  rw [List.append_nil] at h
  rw [execBlockL_append, execBlockL_hush hc.toHush _ _ ha, h]
  simp only [execBlock, quiet_bind, quiet_pure, bind_assoc, pure_bind]

/-! ## The full permutation -/

theorem note_permute (hc : Seen c c') {f : String} (hf : seen (.call f) = [.permute]) : note c [.call f] = emit .permute := by
  funext log
  unfold note emit
  rw [hc.obs, List.flatMap_singleton, hf]

/-- `x = blake2b_lyra(x)`. -/
theorem execL_permute (hc : Seen c c') {env : Env} {s : State} {x bl : String} (hext : bl ≠ "Vec::with_capacity") (hbl : seen (.call bl) = [.permute])
    (hcall : ∀ s : State, c.call bl [.words64 s.toArray] = pure (.words64 (blake2b_lyra s).toArray)) (hs : Has env x (.words64 s.toArray)) :
    execL c (.assign (.var x) (.call bl [.var x])) env =
      (Model.Log.permute s >>= fun s' => pure (.next (env.upd x (.words64 s'.toArray)))) := by
  rw [execL, evalL, evalListL_hush hc.toHush env _ (by rfl)]
  simp only [evalList, eval_var hs, pure_bind, quiet_pure, if_neg hext, note_permute hc hbl, hcall, placeL]
  rw [Model.Log.permute]
  simp only [bind_assoc, pure_bind]
  refine bind_congr fun _ => ?_
  rw [hc.writes (l := .var x) (by rfl), writePlace_var hs]
  simp only [likeOld_words64, pure_bind, quiet_pure]

/-- The function that a body without a panic and its result make. -/
theorem runFnL_next {σ : Type} {f : Fn} {args : List Val} {env : Env} {m : Logged σ} {g : σ → Env} (hb : bindArgs f.params args = pure env)
    (h : execBlockL c f.body env = (m >>= fun x => pure (.next (g x)))) :
    runFnL c f args = (m >>= fun x => evalL c (g x) (some f.ret) f.result) := by
  unfold runFnL
  rw [hb, quiet_pure, pure_bind, h, bind_assoc]
  simp only [pure_bind]

/-! ## Absorbing -/

theorem callL_absorb {name bl : String} {f : Fn} {n : Nat} (ws : List (Fin n)) (hn : n ≤ 16) (hf : crate.find? (·.name = name) = some f) (hext : bl ≠ "Vec::with_capacity")
    (hbl : seen (.call bl) = [.permute])
    (hcall : ∀ s : State, callL seen crate ext u p d bl [.words64 s.toArray] = pure (.words64 (blake2b_lyra s).toArray))
    (hp : ∀ a b, bindArgs f.params [.words64 a, .words64 b] = pure [("s", .words64 a), ("w", .words64 b)])
    (hbody : f.body = ws.map (fun k : Fin n => .assignOp .xor (.index (.var "s") (.lit (k : Nat))) (.index (.var "w") (.lit (k : Nat)))) ++
      [.assign (.var "s") (.call bl [.var "s"])])
    (hush : hushSs quietVar quietFn (ws.map (fun k : Fin n => .assignOp .xor (.index (.var "s") (.lit (k : Nat))) (.index (.var "w") (.lit (k : Nat))))) = true)
    (hres : f.result = .var "s") (hret : ∀ a, asTy (some f.ret) (.words64 a) = pure (.words64 a)) (s : State) (w : Array U64) :
    callL seen crate ext u p (d + 1) name [.words64 s.toArray, .words64 w] =
      ((quiet (ws.foldlM (fun (s : State) (i : Fin n) => do
        let x ← vget w i
        pure (s.set i (s[i] ^^^ x))) s) >>= fun s => Model.Log.permute s) >>= fun s' => pure (.words64 s'.toArray)) := by
  rw [callL_fn name f _ hf]
  have h1 := execBlockL_quiet (seen_ctx (ext := ext) (u := u) (p := p) (d := d)) hush
    (execBlock_map ws _ (fun (k : Fin n) (s : State) => vget w k >>= fun x => pure (s.set k (s[k] ^^^ x))) (fun s : State => [("s", .words64 s.toArray), ("w", .words64 w)])
      (fun k s => exec_absorbWord _ k (by omega) s w) [] s) [.assign (.var "s") (.call bl [.var "s"])]
  have h2 : execBlockL (lctx ext u p d) f.body [("s", .words64 s.toArray), ("w", .words64 w)] =
      ((quiet (ws.foldlM (fun (s : State) (i : Fin n) => do
        let x ← vget w i
        pure (s.set i (s[i] ^^^ x))) s) >>= fun s => Model.Log.permute s) >>= fun s' => pure (.next [("s", .words64 s'.toArray), ("w", .words64 w)])) := by
    rw [hbody, h1, bind_assoc]
    refine bind_congr fun s => ?_
    rw [execBlockL_next (execL_permute seen_ctx hext hbl hcall (by rfl))]
    simp only [execBlockL_nil]
    rfl
  rw [runFnL_next (hp _ _) h2]
  refine bind_congr fun s => ?_
  rw [hres, evalL_hush seen_ctx.toHush _ _ _ (by rfl), eval, show Env.get "s" [("s", Val.words64 s.toArray), ("w", .words64 w)] = pure (.words64 s.toArray) from rfl,
    pure_bind, hret, quiet_pure]

/-! ## Squeezing -/

/-- A `for` loop over `i64` from 0. -/
theorem execL_for_i64 (hc : Seen c c') {env : Env} {hi : Expr} {n : I64} (x : String) (body : List Stmt) (hh : hushE quietVar quietFn hi = true)
    (h : eval c' env none hi = pure (.i64 n)) :
    execL c (.forIn x (.lit 0) hi false body) env =
      (Model.Log.forLoop 0 (irangeLen 0 n) (forBodyL c x (fun k => .i64 (BitVec.ofNat 64 k)) body) env >>= fun env => pure (.next env)) := by
  rw [execL, evalL_hush hc.toHush env none _ (by rfl), evalL_hush hc.toHush env none _ hh, eval, h, asTy]
  · simp only [quiet_pure, pure_bind, num_lit 0 (by decide), num_i64, note_one _ (hc.range _)]
    have e1 : (n.toInt - ((0 : Nat) : Int) + (if false = true then 1 else 0)).toNat = irangeLen 0 n := by
      simp [irangeLen]
    rw [e1]
    have e2 : ∀ k : Nat, rangeVal (.lit ((0 : Nat) : Int)) (.i64 n) (((0 : Nat) : Int) + k) = .i64 (BitVec.ofNat 64 k) := by
      intro k
      simp [rangeVal]
    simp only [e2]
    rfl
  · simp

/-- The silent part of the body of `squeeze`. -/
def squeezeQuiet (blk : String) : List Stmt :=
  [.forIn "_i" (.lit 0) (.const blk) false extendBody,
    .mutate (.prefix (.var "out") (.cast (.var "output_size") .usize)) "clone_from_slice" [.prefix (.var "tmp") (.cast (.var "output_size") .usize)]]

theorem exec_squeezeQuiet (hu : c'.u = u) {blk : String} (hblk : c'.call blk [] = pure (.i64 12))
    (jmax j : I64) (size : U64) (tmp out : List U8) (s : State) (hout : out.length = Model.Target.usz u size) :
    execBlock c' (squeezeQuiet blk ++ []) (("_j", .i64 j) :: squeezeEnv jmax size tmp out s) =
      ((Model.Target.extend u tmp ((s.toList.take 12).flatMap toLeBytes64) >>= fun tmp => slice tmp 0 (Model.Target.usz u size) >>= fun out => pure (tmp, out)) >>= fun q =>
        execBlock c' [] (("_j", .i64 j) :: squeezeEnv jmax size q.1 q.2 s)) := by
  unfold squeezeQuiet
  simp only [List.cons_append, List.nil_append]
  rw [execBlock_next (exec_extend hu hblk (by rfl) (by rfl))]
  simp only [bind_assoc]
  refine bind_congr fun tmp' => ?_
  have h : Env.upd "tmp" (.bytes tmp') (("_j", Val.i64 j) :: squeezeEnv jmax size tmp out s) = ("_j", .i64 j) :: squeezeEnv jmax size tmp' out s := by rfl
  rw [h]
  have h2 : slice out 0 (Model.Target.usz u size) = pure out := by
    unfold slice
    rw [if_pos ⟨by omega, by omega⟩]
    simp [← hout]
  run_src [squeezeEnv, part, hu, h2]
  refine bind_congr_pure fun ys hys => ?_
  have hlen : ys.length = Model.Target.usz u size := slice_length hys
  have h3 : overwrite (.bytes out) (Model.Target.usz u size) (.bytes ys) = pure (.bytes ys) := by
    simp only [overwrite, hlen, ↓reduceIte]
    rw [← hout, List.drop_length, List.append_nil]
  rw [h3, pure_bind, likeOld_bytes, pure_bind]

theorem forLoopL_congr {ε σ : Type} (P : Nat → σ → Prop) (i n : Nat) (body body' : Nat → σ → LoggedOf ε σ)
    (h : ∀ k s, P k s → i ≤ k → k < i + n → body' k s = body k s)
    (hP : ∀ k s s' log log', P k s → i ≤ k → k < i + n → body k s log = pure (s', log') → P (k + 1) s') (s : σ) (h0 : P i s) :
    Model.Log.forLoop i n body' s = Model.Log.forLoop i n body s := by
  have := forLoopL_map_inv id P i n body body' (fun k s h1 h2 h3 => by rw [id, h k s h1 h2 h3]; simp) hP s h0
  simpa using this

/-- A step that is not seen, then others. -/
theorem quiet_bind_pure {ε α β : Type} {m : Res α} {f : α → LoggedOf ε β} {b : β} {log log' : List ε} (h : (quiet m >>= f) log = pure (b, log')) :
    ∃ a, m = pure a ∧ f a log = pure (b, log') := by
  have h' : ((m >>= fun a => pure (a, log)) >>= fun x : α × List ε => f x.1 x.2) = pure (b, log') := h
  rw [bind_assoc] at h'
  obtain ⟨a, ha, h''⟩ := bind_eq_pure h'
  rw [pure_bind] at h''
  exact ⟨a, ha, h''⟩

/-- The body of `squeeze`, with the limit on the length of `tmp`. -/
def squeezeRound (u : Nat) (size : Nat) (r : List U8 × List U8 × State) : Logged (List U8 × List U8 × State) := do
  let tmp ← quiet (Model.Target.extend u r.1 ((r.2.2.toList.take 12).flatMap toLeBytes64))
  let out ← quiet (slice tmp 0 size)
  let state ← Model.Log.permute r.2.2
  pure (tmp, out, state)

theorem execL_squeezeLoop (hc : Seen c c') (hu : c'.u = u) {blk bl : String} (hq : quietFn blk = true) (hblk : c'.call blk [] = pure (.i64 12)) (hext : bl ≠ "Vec::with_capacity")
    (hbl : seen (.call bl) = [.permute])
    (hcall : ∀ s : State, c.call bl [.words64 s.toArray] = pure (.words64 (blake2b_lyra s).toArray))
    (jmax : I64) (size : U64) (out : List U8) (s : State) (hout : out.length = Model.Target.usz u size) :
    execL c (.forIn "_j" (.lit 0) (.var "jmax") false (squeezeBody blk bl)) (squeezeEnv jmax size [] out s) =
      (Model.Log.forLoop 0 (irangeLen 0 jmax) (fun _ => squeezeRound u (Model.Target.usz u size)) ([], out, s) >>= fun r =>
        pure (.next (squeezeEnv jmax size r.1 r.2.1 r.2.2))) := by
  rw [execL_for_i64 hc (n := jmax) "_j" _ (by rfl) (by rfl)]
  rw [forLoopL_map_inv (fun r : List U8 × List U8 × State => squeezeEnv jmax size r.1 r.2.1 r.2.2) (fun _ r => r.2.1.length = Model.Target.usz u size)
    0 (irangeLen 0 jmax) (fun _ => squeezeRound u (Model.Target.usz u size)) _ _ _ ([], out, s) hout]
  · simp only [bind_assoc, pure_bind]
  · intro k r hr _ _
    refine forBodyL_next (f := fun r : List U8 × List U8 × State => squeezeEnv jmax size r.1 r.2.1 r.2.2) (fun _ => rfl) ?_
    rw [show squeezeBody blk bl = squeezeQuiet blk ++ [.assign (.var "state") (.call bl [.var "state"])] from rfl]
    rw [execBlockL_quiet hc (by simp [squeezeQuiet, extendBody, hushSs, hushS, hushE, hushEs, hushP, rootOf, isComputed, quietVar, hq])
      (exec_squeezeQuiet hu hblk jmax _ size _ _ _ hr), squeezeRound]
    simp only [quiet_bind, quiet_pure, bind_assoc, pure_bind]
    refine bind_congr fun tmp => ?_
    refine bind_congr fun out => ?_
    rw [execBlockL_next (execL_permute hc hext hbl hcall (by rfl))]
    simp only [execBlockL_nil]
    rfl
  · intro k r r' log log' hr _ _ h
    obtain ⟨tmp, _, h⟩ := quiet_bind_pure h
    obtain ⟨out, h2, h⟩ := quiet_bind_pure h
    have h3 := Res.pure_inj h
    simp only [Prod.mk.injEq] at h3
    rw [← h3.1]
    exact slice_length h2

theorem squeeze_log (p : Profile) (s : State) (k : U64) :
    (do
      let out ← quiet (Model.Target.vecOf u 1 (0 : U8) (Model.Target.usz u k))
      let jmax ← quiet (iadd p (idiv k BLOCKLENBYTES) 1)
      let r ← Model.Log.forLoop 0 (irangeLen 0 jmax) (fun _ => squeezeRound u (Model.Target.usz u k)) (([] : List U8), out.toList, s)
      pure r.2.1) = Model.LogTarget.squeeze u p s k := rfl

theorem callL_squeezeFn {name blk bl : String} {f : Fn} (hf : crate.find? (·.name = name) = some f) (hq : quietFn blk = true)
    (hb : hushSs quietVar quietFn (f.body.take 4) = true) (hblk : call crate ext u p d blk [] = pure (.i64 12))
    (hext : bl ≠ "Vec::with_capacity") (hbl : seen (.call bl) = [.permute])
    (hcall : ∀ s : State, callL seen crate ext u p d bl [.words64 s.toArray] = pure (.words64 (blake2b_lyra s).toArray))
    (hp : ∀ a b, bindArgs f.params [.words64 a, .u64 b] = pure [("state", .words64 a), ("output_size", .u64 b)])
    (hbody : f.body = f.body.take 4 ++ [.forIn "_j" (.lit 0) (.var "jmax") false (squeezeBody blk bl)])
    (hres : f.result = .var "out") (hret : f.ret = .vec .u8) (s : State) (size : U64)
    (hl : ∀ rest : List Stmt, execBlock (ctx ext u p d) (f.body.take 4 ++ rest) [("state", .words64 s.toArray), ("output_size", .u64 size)] =
      (Model.Target.vecOf u 1 (0 : U8) (Model.Target.usz u size) >>= fun out => iadd p (idiv size BLOCKLENBYTES) 1 >>= fun jmax =>
        execBlock (ctx ext u p d) rest (squeezeEnv jmax size [] out.toList s))) :
    callL seen crate ext u p (d + 1) name [.words64 s.toArray, .u64 size] = (Model.LogTarget.squeeze u p s size >>= fun xs => pure (.bytes xs)) := by
  rw [callL_fn name f _ hf, ← squeeze_log]
  have h1 := execBlockL_quiet (m := (Model.Target.vecOf u 1 (0 : U8) (Model.Target.usz u size) >>= fun out => iadd p (idiv size BLOCKLENBYTES) 1 >>= fun jmax => pure (out, jmax)))
    (f := fun q => squeezeEnv q.2 size [] q.1.toList s) (seen_ctx (ext := ext) (u := u) (p := p) (d := d)) hb (by rw [hl]; simp only [bind_assoc, pure_bind])
    [.forIn "_j" (.lit 0) (.var "jmax") false (squeezeBody blk bl)]
  unfold runFnL
  rw [hp, quiet_pure, pure_bind, hbody, h1]
  simp only [quiet_bind, quiet_pure, bind_assoc, pure_bind]
  refine bind_congr_quiet fun out hout => ?_
  refine bind_congr fun jmax => ?_
  have hlen : out.toList.length = Model.Target.usz u size := by
    unfold Model.Target.vecOf at hout
    split at hout
    · rw [← Res.pure_inj hout]; simp
    · exact (Res.pure_ne_throw hout.symm).elim
  rw [execBlockL_cons, execL_squeezeLoop seen_ctx rfl hq hblk hext hbl hcall jmax size out.toList s hlen]
  simp only [bind_assoc, pure_bind, execBlockL_nil]
  refine bind_congr fun r => ?_
  rw [hres, hret]
  rfl

/-! ## The functions -/

theorem hush_blake2b : hushFn quietVar quietFn lyra2.blake2b_lyra = true := by decide +kernel
theorem hush_reduced : hushFn quietVar quietFn lyra2.reduced_blake2b_lyra = true := by decide +kernel

theorem callL_blake2b (s : State) : callL seen crate ext u p (d + 4) "lyra2::blake2b_lyra" [.words64 s.toArray] = pure (.words64 (blake2b_lyra s).toArray) := by
  rw [callL_silent _ lyra2.blake2b_lyra _ (by rfl) hush_blake2b, call_blake2b, quiet_pure]

theorem callL_absorb_block (s : State) (w : Array U64) : callL seen crate ext u p (d + 5) "lyra2::absorb_block" [.words64 s.toArray, .words64 w] =
    (Model.Log.absorb_block s w >>= fun s' => pure (.words64 s'.toArray)) :=
  callL_absorb (f := lyra2.absorb_block) (bl := "lyra2::blake2b_lyra") (List.finRange 12) (by decide) (by rfl) (by decide) (by rfl) callL_blake2b (fun _ _ => rfl) (by rfl) (by rfl) (by rfl)
    (fun _ => rfl) s w

theorem callL_absorb_safe (s : State) (w : Array U64) : callL seen crate ext u p (d + 5) "lyra2::absorb_block_blake2_safe" [.words64 s.toArray, .words64 w] =
    (Model.Log.absorb_block_blake2_safe s w >>= fun s' => pure (.words64 s'.toArray)) :=
  callL_absorb (f := lyra2.absorb_block_blake2_safe) (bl := "lyra2::blake2b_lyra") (List.finRange 8) (by decide) (by rfl) (by decide) (by rfl) callL_blake2b (fun _ _ => rfl) (by rfl) (by rfl) (by rfl)
    (fun _ => rfl) s w

theorem callL_squeeze (s : State) (size : U64) : callL seen crate ext u p (d + 5) "lyra2::squeeze" [.words64 s.toArray, .u64 size] =
    (Model.LogTarget.squeeze u p s size >>= fun xs => pure (.bytes xs)) := by
  refine callL_squeezeFn (f := lyra2.squeeze) (blk := "lyra2::BLOCKLENINT64") (bl := "lyra2::blake2b_lyra") (by rfl) (by decide) (by decide +kernel) call_BLOCKLENINT64
    (by decide) (by rfl) callL_blake2b (fun _ _ => rfl) (by rfl) (by rfl) (by rfl) s size ?_
  intro rest
  rw [show lyra2.squeeze.body.take 4 ++ rest = _ :: _ :: _ :: _ :: rest from rfl]
  have : 0 < BLOCKLENBYTES.toInt := by decide
  run_src [repeated_u8, call_BLOCKLENBYTES, this]
  rfl

namespace Mod

theorem hush_blake2b : hushFn quietVar quietFn lyra2mod.blake2b_lyra = true := by decide +kernel
theorem hush_reduced : hushFn quietVar quietFn lyra2mod.reduced_blake2b_lyra = true := by decide +kernel

theorem callL_blake2b (s : State) : callL seen crate ext u p (d + 4) "lyra2mod::blake2b_lyra" [.words64 s.toArray] = pure (.words64 (blake2b_lyra s).toArray) := by
  rw [callL_silent _ lyra2mod.blake2b_lyra _ (by rfl) hush_blake2b, call_blake2b, quiet_pure]

theorem callL_absorb_block (s : State) (w : Array U64) : callL seen crate ext u p (d + 5) "lyra2mod::absorb_block" [.words64 s.toArray, .words64 w] =
    (Model.Log.absorb_block s w >>= fun s' => pure (.words64 s'.toArray)) :=
  callL_absorb (f := lyra2mod.absorb_block) (bl := "lyra2mod::blake2b_lyra") (List.finRange 12) (by decide) (by rfl) (by decide) (by rfl) callL_blake2b (fun _ _ => rfl) (by rfl) (by rfl) (by rfl)
    (fun _ => rfl) s w

theorem callL_absorb_safe (s : State) (w : Array U64) : callL seen crate ext u p (d + 5) "lyra2mod::absorb_block_blake2_safe" [.words64 s.toArray, .words64 w] =
    (Model.Log.absorb_block_blake2_safe s w >>= fun s' => pure (.words64 s'.toArray)) :=
  callL_absorb (f := lyra2mod.absorb_block_blake2_safe) (bl := "lyra2mod::blake2b_lyra") (List.finRange 8) (by decide) (by rfl) (by decide) (by rfl) callL_blake2b (fun _ _ => rfl) (by rfl) (by rfl) (by rfl)
    (fun _ => rfl) s w

theorem callL_squeeze (s : State) (size : U64) : callL seen crate ext u p (d + 5) "lyra2mod::squeeze" [.words64 s.toArray, .u64 size] =
    (Model.LogTarget.squeeze u p s size >>= fun xs => pure (.bytes xs)) := by
  refine callL_squeezeFn (f := lyra2mod.squeeze) (blk := "lyra2mod::BLOCKLENINT64") (bl := "lyra2mod::blake2b_lyra") (by rfl) (by decide) (by decide +kernel) call_BLOCKLENINT64
    (by decide) (by rfl) callL_blake2b (fun _ _ => rfl) (by rfl) (by rfl) (by rfl) s size ?_
  intro rest
  rw [show lyra2mod.squeeze.body.take 4 ++ rest = _ :: _ :: _ :: _ :: rest from rfl]
  have : 0 < BLOCKLENBYTES.toInt := by decide
  run_src [repeated_u8, call_BLOCKLENBYTES, this]
  rfl

end Mod

end Source

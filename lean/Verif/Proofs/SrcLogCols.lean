import Verif.Model.LogTarget
import Verif.Proofs.SrcSponge
import Verif.Proofs.SrcHush
import Verif.Proofs.Target64

/-! The loops over the columns of a row, as they stand in the source, and what is seen of them. -/

namespace Source
open Rust
open Model.Log (Logged LoggedOf quiet emit)
open Model.Lyra2 (State Matrix BLOCKLENINT64 reduced_blake2b_lyra)
open Model.Target (idx idxRev idxRow0 idxRow1Rev)
open Proofs.Target

/-! ## Statements -/

variable {c : LCtx Event} {c' : Ctx} {u : Nat} [Width u]

theorem execBlockL_cons (s : Stmt) (ss : List Stmt) (env : Env) :
    execBlockL c (s :: ss) env = (execL c s env >>= fun r => match r with
      | .next env => execBlockL c ss env
      | .brk env => pure (.brk env)) := by
  rw [execBlockL]
  refine bind_congr fun r => ?_
  cases r <;> rfl

/-- A statement that ends normally. -/
theorem execBlockL_next {σ : Type} {s : Stmt} {ss : List Stmt} {env : Env} {m : Logged σ} {f : σ → Env}
    (h : execL c s env = (m >>= fun a => pure (.next (f a)))) : execBlockL c (s :: ss) env = (m >>= fun a => execBlockL c ss (f a)) := by
  rw [execBlockL_cons, h, bind_assoc]
  simp only [pure_bind]

theorem execBlockL_next_pure {s : Stmt} {ss : List Stmt} {env env' : Env}
    (h : execL c s env = pure (.next env')) : execBlockL c (s :: ss) env = execBlockL c ss env' := by
  rw [execBlockL_cons, h, pure_bind]

theorem foldlM_log {ι σ : Type} (ws : List ι) (stmt : ι → σ → Logged σ) (s : σ) :
    (fun log => ws.foldlM (fun (x : σ × List Event) w => stmt w x.1 x.2) (s, log)) = (ws.foldlM (fun s w => stmt w s) s : Logged σ) := by
  induction ws generalizing s with
  | nil => rfl
  | cons w ws ih =>
    funext log
    simp only [List.foldlM_cons]
    show _ = (stmt w s log >>= fun x => (ws.foldlM (fun s w => stmt w s) x.1 : Logged σ) x.2)
    refine bind_congr fun x => ?_
    exact congrFun (ih x.1) x.2

/-- A statement repeated for several words. -/
theorem execBlockL_map {ι σ : Type} (ws : List ι) (S : ι → Stmt) (step : ι → σ → Logged σ) (f : σ → Env)
    (h : ∀ w s, execL c (S w) (f s) = (step w s >>= fun s' => pure (.next (f s')))) (rest : List Stmt) (s : σ) :
    execBlockL c (ws.map S ++ rest) (f s) = ((ws.foldlM (fun s w => step w s) s : Logged σ) >>= fun s' => execBlockL c rest (f s')) := by
  induction ws generalizing s with
  | nil => rw [List.map_nil, List.nil_append, List.foldlM_nil, pure_bind]
  | cons w ws ih =>
    rw [List.map_cons, List.cons_append, execBlockL_next (h w s), List.foldlM_cons, bind_assoc]
    refine bind_congr fun s' => ?_
    exact ih s'

/-- Twelve statements that differ in the number of the word. -/
theorem execBlockL_unroll {σ : Type} (S : Fin 12 → Stmt) (step : Fin 12 → σ → Logged σ) (f : σ → Env)
    (h : ∀ w s, execL c (S w) (f s) = (step w s >>= fun s' => pure (.next (f s')))) (rest : List Stmt) (s : σ) :
    execBlockL c ((List.finRange 12).map S ++ rest) (f s) = (Model.Log.unroll12 step s >>= fun s' => execBlockL c rest (f s')) := by
  rw [execBlockL_map _ S step f h rest s, ← foldlM_log]
  rfl

theorem forLoopL_succ {ε σ : Type} (i n : Nat) (body : Nat → σ → LoggedOf ε σ) (s : σ) :
    Model.Log.forLoop i (n + 1) body s = (body i s >>= fun s' => Model.Log.forLoop (i + 1) n body s') := rfl

/-- A `for` loop whose body acts on an image of the state. -/
theorem forLoopL_map {ε σ τ : Type} (f : σ → τ) (i n : Nat) (body : Nat → σ → LoggedOf ε σ) (body' : Nat → τ → LoggedOf ε τ)
    (h : ∀ k s, i ≤ k → k < i + n → body' k (f s) = (body k s >>= fun s' => pure (f s'))) (s : σ) :
    Model.Log.forLoop i n body' (f s) = (Model.Log.forLoop i n body s >>= fun s' => pure (f s')) := by
  induction n generalizing i s with
  | zero => rfl
  | succ n ih =>
    rw [forLoopL_succ, forLoopL_succ, h i s (Nat.le_refl _) (by omega), bind_assoc, bind_assoc]
    refine bind_congr fun s' => ?_
    rw [pure_bind]
    exact ih (i + 1) (fun k s hk hk' => h k s (by omega) (by omega)) s'

/-- What follows only matters for the values that are returned. -/
theorem bind_congr_log {ε α β : Type} {m : LoggedOf ε α} {f g : α → LoggedOf ε β} (P : α → Prop) (hP : ∀ log a log', m log = pure (a, log') → P a)
    (h : ∀ a, P a → f a = g a) : (m >>= f) = (m >>= g) := by
  funext log
  show (m log >>= fun x => f x.1 x.2) = (m log >>= fun x => g x.1 x.2)
  refine bind_congr_pure fun x hx => ?_
  rw [h x.1 (hP log x.1 x.2 hx)]

theorem bind_congr_quiet {ε α β : Type} {m : Res α} {f g : α → LoggedOf ε β} (h : ∀ a, m = pure a → f a = g a) : (quiet m >>= f) = (quiet m >>= g) := by
  refine bind_congr_log (fun a => m = pure a) (fun log a log' hm => ?_) h
  unfold quiet at hm
  obtain ⟨x, hx, he⟩ := bind_eq_pure hm
  have := Res.pure_inj he
  simp only [Prod.mk.injEq] at this
  rw [hx, this.1]

/-- A `for` loop whose body acts on an image of the state, under an invariant. -/
theorem forLoopL_map_inv {ε σ τ : Type} (f : σ → τ) (P : Nat → σ → Prop) (i n : Nat) (body : Nat → σ → LoggedOf ε σ) (body' : Nat → τ → LoggedOf ε τ)
    (h : ∀ k s, P k s → i ≤ k → k < i + n → body' k (f s) = (body k s >>= fun s' => pure (f s')))
    (hP : ∀ k s s' log log', P k s → i ≤ k → k < i + n → body k s log = pure (s', log') → P (k + 1) s') (s : σ) (h0 : P i s) :
    Model.Log.forLoop i n body' (f s) = (Model.Log.forLoop i n body s >>= fun s' => pure (f s')) := by
  induction n generalizing i s with
  | zero => rfl
  | succ n ih =>
    rw [forLoopL_succ, forLoopL_succ, h i s h0 (Nat.le_refl _) (by omega), bind_assoc, bind_assoc]
    refine bind_congr_log (P (i + 1)) (fun log a log' ha => hP i s a log log' h0 (Nat.le_refl _) (by omega) ha) fun s' hs' => ?_
    rw [pure_bind]
    exact ih (i + 1) (fun k s hP hk hk' => h k s hP (by omega) (by omega)) (fun k s s' log log' h1 hk hk' => hP k s s' log log' h1 (by omega) (by omega)) s' hs'

theorem forLoopL_shift {ε σ : Type} (i j n : Nat) (body : Nat → σ → LoggedOf ε σ) (s : σ) :
    Model.Log.forLoop (i + j) n body s = Model.Log.forLoop i n (fun k s => body (k + j) s) s := by
  induction n generalizing i s with
  | zero => rfl
  | succ n ih =>
    rw [forLoopL_succ, forLoopL_succ]
    refine bind_congr fun s' => ?_
    rw [← ih (i + 1) s', show i + 1 + j = i + j + 1 by omega]

/-- The body of a `for` loop as the interpreter runs it. -/
def forBodyL (c : LCtx Event) (x : String) (v : Nat → Val) (body : List Stmt) (k : Nat) (env : Env) : Logged Env := do
  match (← execScopeL c env.length body ((x, v k) :: env)) with
  | .next env => pure env
  | .brk _ => quiet stuck

/-- One round of a `for` loop whose body declares further variables. -/
theorem forBodyL_scope {σ : Type} {x : String} {v : Nat → Val} {body : List Stmt} {k : Nat} {env : Env} {m : Logged σ} {f : σ → Env}
    (pre : σ → Env) (hlen : ∀ s, (f s).length = env.length)
    (h : execBlockL c body ((x, v k) :: env) = (m >>= fun s => pure (.next (pre s ++ f s)))) :
    forBodyL c x v body k env = (m >>= fun s => pure (f s)) := by
  unfold forBodyL
  rw [execScopeL, h]
  simp only [bind_assoc, pure_bind]
  refine bind_congr fun s => ?_
  rw [leave_append _ (hlen s)]

/-- One round of a `for` loop whose body ends normally. -/
theorem forBodyL_next {σ : Type} {x : String} {v : Nat → Val} {body : List Stmt} {k : Nat} {env : Env} {m : Logged σ} {f : σ → Env}
    (hlen : ∀ s, (f s).length = env.length)
    (h : execBlockL c body ((x, v k) :: env) = (m >>= fun s => pure (.next ((x, v k) :: f s)))) :
    forBodyL c x v body k env = (m >>= fun s => pure (f s)) :=
  forBodyL_scope (fun _ => [(x, v k)]) hlen h

/-! ## The surroundings -/

/-- Accesses of which nothing is seen. -/
def quietVar (x : String) (b : Bool) : Bool := x != "whole_matrix" && !(x == "state" && b)

/-- The functions of which something is seen. -/
def loud : List String :=
  ["lyra2::blake2b_lyra", "lyra2::reduced_blake2b_lyra", "lyra2::squeeze", "lyra2::absorb_block", "lyra2::absorb_block_blake2_safe", "lyra2::lyra2",
    "lyra2::sum", "lyra2mod::blake2b_lyra", "lyra2mod::reduced_blake2b_lyra", "lyra2mod::squeeze", "lyra2mod::absorb_block",
    "lyra2mod::absorb_block_blake2_safe", "lyra2mod::lyra2mod", "lyra2mod::sum", "lyra2re::sum", "lyra2rev2::sum", "lyra2rev3::sum", "lyra2z::sum"]

/-- The other functions. -/
def quietFn (f : String) : Bool := !loud.contains f

/-- The observer is `seen`; nothing is seen of the functions in `quietFn`. -/
structure Seen (c : LCtx Event) (c' : Ctx) : Prop extends Hush c c' quietVar quietFn where
  obs : c.obs = seen

theorem note_read (h : c.obs = seen) (b : Bool) (k : Nat) : note c [.read "whole_matrix" b k] = emit (.read k) := by
  funext log
  unfold note emit
  rw [h]
  rfl

theorem note_write (h : c.obs = seen) (b : Bool) (k : Nat) : note c [.write "whole_matrix" b k] = emit (.write k) := by
  funext log
  unfold note emit
  rw [h]
  rfl

theorem note_state (h : c.obs = seen) (k : Nat) : note c [.read "state" true k] = emit (.state k) := by
  funext log
  unfold note emit
  rw [h]
  rfl

theorem note_split (h : c.obs = seen) (k n : Nat) : note c [.split "whole_matrix" k n] = emit (.copy k n) := by
  funext log
  unfold note emit
  rw [h]
  rfl

/-- What the bodies of the loops need from the rest of the crate. -/
structure LyraSeen (c : LCtx Event) (c' : Ctx) (u : Nat) (p : Profile) (blk red : String) : Prop extends Seen c c' where
  plain : LyraCtx c' u p blk red
  quietBlk : quietFn blk = true
  seenRed : seen (.call red) = [.round]
  callRed : ∀ vs, c.call red vs = quiet (c'.call red vs)

variable {p : Profile} {blk red : String}

/-- `for x in 0..hi` over `u64`. -/
theorem execL_for_u64 (hc : Seen c c') {env : Env} {hi : String} {n : U64} (x : String) (body : List Stmt) (h : Has env hi (.u64 n)) :
    execL c (.forIn x (.lit 0) (.var hi) false body) env =
      (Model.Log.forLoop 0 n.toNat (forBodyL c x (fun k => .u64 (BitVec.ofNat 64 k)) body) env >>= fun env => pure (.next env)) := by
  rw [execL, evalL_hush hc.toHush env none _ (by rfl), evalL_hush hc.toHush env none _ (by rfl), eval, eval_var h, asTy]
  · simp only [quiet_pure, pure_bind, num_lit 0 (by decide), num_u64, note_one _ (hc.range _)]
    have e1 : ((n.toNat : Int) - ((0 : Nat) : Int) + (if false = true then 1 else 0)).toNat = n.toNat := by simp
    rw [e1]
    have e2 : ∀ k : Nat, rangeVal (.lit ((0 : Nat) : Int)) (.u64 n) (((0 : Nat) : Int) + k) = .u64 (BitVec.ofNat 64 k) := by
      intro k
      simp [rangeVal]
    simp only [e2]
    rfl
  · simp

/-! ## Nothing is seen of the expressions for the positions -/

theorem hush_word {e : Expr} (h : hushE quietVar quietFn e = true) (w : Fin 12) : hushE quietVar quietFn (word e w) = true := by
  unfold word
  split
  · exact h
  · simp [hushE, h]

theorem hush_inRow {e : Expr} (h : hushE quietVar quietFn e = true) (r : String) : hushE quietVar quietFn (inRow e r) = true := by
  simp [inRow, hushE, h]

theorem hush_colE (h : quietFn blk = true) : hushE quietVar quietFn (colE blk) = true := by
  simp [colE, hushE, h]

theorem hush_revE (h : quietFn blk = true) : hushE quietVar quietFn (revE blk) = true := by
  simp [revE, hushE, h]

theorem hush_stateE (w : Nat) : hushE quietVar quietFn (stateE w) = true := by
  simp [stateE, hushE, rootOf, isComputed, quietVar]

/-! ## Cells -/

variable {env : Env} {e : Expr} {n : Res I64} {m : Matrix} {s : State}

/-- `whole_matrix[e as usize]`. -/
theorem evalL_cell (hc : Seen c c') (hu : c'.u = u) (he : hushE quietVar quietFn e = true) (h : eval c' env none e = (n >>= fun a => pure (.i64 a)))
    (hm : Has env "whole_matrix" (.words64 m)) :
    evalL c env none (cellE e) = (quiet (n >>= fun a => pure (Model.Target.usz u a)) >>= fun j => Model.Log.get m j >>= fun x => pure (.u64 x)) := by
  have h1 : eval c' env none (.cast e .usize) = ((n >>= fun a => pure (.usize (low u a))) : Res Val) := by
    rw [eval, h]
    run_src [hu]
  unfold cellE
  rw [evalL, evalL_hush hc.toHush env none _ (by rfl), evalL_hush hc.toHush env none (.cast e .usize) (by rw [hushE]; exact he), eval_var hm, h1]
  simp only [quiet_bind, quiet_pure, bind_assoc, pure_bind, position_usize]
  refine bind_congr fun a => ?_
  rw [show rootOf (.var "whole_matrix") = "whole_matrix" from rfl, note_read hc.obs, low_toNat, Model.Log.get, bind_assoc]
  refine bind_congr fun _ => ?_
  rw [item_words64, quiet_bind]
  rfl

theorem placeL_cell (hc : Seen c c') (hu : c'.u = u) (he : hushE quietVar quietFn e = true) (h : eval c' env none e = (n >>= fun a => pure (.i64 a))) :
    placeL c env (cellE e) = (quiet (n >>= fun a => pure (Model.Target.usz u a)) >>= fun j => pure ("whole_matrix", [.index j])) := by
  rw [placeL_hush hc.toHush env _ (by simp [cellE, hushP, hushE, he]), place_cell hu h, quiet_bind]
  rfl

theorem evalL_stateE (hc : Seen c c') (hs : Has env "state" (.words64 s.toArray)) (w : Nat) (hw : w < 16) :
    evalL c env none (stateE w) = pure (.u64 s[w]) := by
  rw [evalL_hush hc.toHush env none _ (hush_stateE w), eval_stateE hs w hw, quiet_pure]

/-- `state[w] ^= e`. -/
theorem execL_xorState (hc : Seen c c') {x : Logged U64} (hs : Has env "state" (.words64 s.toArray)) (h : evalL c env none e = (x >>= fun x => pure (.u64 x)))
    (w : Fin 12) : execL c (.assignOp .xor (stateE w) e) env =
      ((x >>= fun x => pure (s.set w (s[w] ^^^ x))) >>= fun s' => pure (.next (env.upd "state" (.words64 s'.toArray)))) := by
  have hw : (w : Nat) < 16 := by omega
  rw [execL, h]
  simp only [bind_assoc, pure_bind]
  refine bind_congr fun x => ?_
  have h1 : place c' env (stateE w) = pure ("state", [.index w]) := by
    run_src [stateE, position_lit w (by omega)]
  rw [placeL_hush hc.toHush env _ (by simp [stateE, hushP, hushE]), h1]
  simp only [quiet_pure, pure_bind]
  rw [hc.reads (by simp [stateE, hushL, rootOf, isComputed, quietVar])]
  simp only [hc.writes (l := stateE w) (by simp [stateE, hushL, rootOf, isComputed, quietVar]), readPlace_index hs, item_words64, vget_vec s w hw, pure_bind,
    quiet_pure, hc.toHush.op, xor_u64, writePlace_index hs, setItem_words64, vset_vec s w _ hw]
  rfl

theorem readNotes_cell (e : Expr) (j : Nat) : ∃ b, readNotes (cellE e) ("whole_matrix", [.index j]) = [.read "whole_matrix" b j] := ⟨_, rfl⟩

theorem writeNotes_cell (e : Expr) (j : Nat) : ∃ b, writeNotes (cellE e) ("whole_matrix", [.index j]) = [.write "whole_matrix" b j] := ⟨_, rfl⟩

/-- `whole_matrix[e as usize] = v`. -/
theorem execL_setCell (hc : Seen c c') (hu : c'.u = u) {v : Expr} {x : Logged U64} (hv : evalL c env none v = (x >>= fun x => pure (.u64 x)))
    (he : hushE quietVar quietFn e = true) (h : eval c' env none e = (n >>= fun a => pure (.i64 a))) (hm : Has env "whole_matrix" (.words64 m)) :
    execL c (.assign (cellE e) v) env =
      ((x >>= fun x => quiet (n >>= fun a => pure (Model.Target.usz u a)) >>= fun j => Model.Log.put m j x) >>= fun m' =>
        pure (.next (env.upd "whole_matrix" (.words64 m')))) := by
  rw [execL, hv, placeL_cell hc hu he h]
  simp only [bind_assoc, pure_bind]
  refine bind_congr fun x => ?_
  refine bind_congr fun j => ?_
  obtain ⟨b, hb⟩ := writeNotes_cell e j
  rw [hb, note_write hc.obs, writePlace_index hm, setItem_words64, Model.Log.put, bind_assoc]
  simp only [quiet_bind, quiet_pure, bind_assoc, pure_bind]

/-- `whole_matrix[e as usize] ^= state[w]`. -/
theorem execL_xorCell (hc : Seen c c') (hu : c'.u = u) (he : hushE quietVar quietFn e = true) (h : eval c' env none e = (n >>= fun a => pure (.i64 a)))
    (hm : Has env "whole_matrix" (.words64 m)) (hs : Has env "state" (.words64 s.toArray)) (w : Nat) (hw : w < 16) :
    execL c (.assignOp .xor (cellE e) (stateE w)) env =
      ((quiet (n >>= fun a => pure (Model.Target.usz u a)) >>= fun j => Model.Log.get m j >>= fun x => Model.Log.put m j (x ^^^ s[w])) >>= fun m' =>
        pure (.next (env.upd "whole_matrix" (.words64 m')))) := by
  rw [execL, evalL_stateE hc hs w hw, placeL_cell hc hu he h]
  simp only [bind_assoc, pure_bind]
  refine bind_congr fun j => ?_
  obtain ⟨b, hb⟩ := readNotes_cell e j
  obtain ⟨b', hb'⟩ := writeNotes_cell e j
  rw [hb, hb', note_read hc.obs, note_write hc.obs, readPlace_index hm, item_words64, Model.Log.get]
  simp only [quiet_bind, quiet_pure, bind_assoc, pure_bind, hc.toHush.op, xor_u64, writePlace_index hm, setItem_words64, Model.Log.put]

omit [Width u] in
/-- `state = reduced_blake2b_lyra(state)`. -/
theorem execL_reduced (hc : LyraSeen c c' u p blk red) (hs : Has env "state" (.words64 s.toArray)) :
    execL c (reducedStmt red) env = (Model.Log.round s >>= fun s' => pure (.next (env.upd "state" (.words64 s'.toArray)))) := by
  have hn : note c [.call red] = emit .round := by
    funext log
    unfold note emit
    rw [hc.obs, List.flatMap_singleton, hc.seenRed]
  rw [reducedStmt, execL, evalL, evalListL_hush hc.toHush env _ (by rfl)]
  simp only [evalList, eval_var hs, pure_bind, quiet_pure, if_neg hc.plain.notExt, hn, hc.callRed, hc.plain.isRed, placeL]
  rw [Model.Log.round]
  simp only [bind_assoc, pure_bind]
  refine bind_congr fun _ => ?_
  rw [hc.writes (l := .var "state") (by rfl), writePlace_var hs]
  simp only [likeOld_words64, pure_bind, quiet_pure]

/-! ## The statements of the loops -/

theorem note_nil : note c [] = pure () := by
  funext log
  unfold note
  rw [List.flatMap_nil, List.append_nil]
  rfl

theorem notes_wrapping_add (e : Expr) (vs : List Val) (r : Val) : methodNotes e "wrapping_add" vs r = [] := by
  unfold methodNotes
  split <;> first | rfl | (rename_i h; exact absurd h (by decide))

variable {e : Env} {n_cols : U64} {rl prev rowa row : I64}

/-- A word of the matrix in a row. -/
theorem evalL_inRow (hc : LyraSeen c c' u p blk red) {i : U64} (hi : Has e "_i" (.u64 i)) {x : String} {r : I64} (hr : Has e x (.i64 r))
    (hrl : Has e "row_len_int64" (.i64 rl)) (hm : Has e "whole_matrix" (.words64 m)) (w : Fin 12) :
    evalL c e none (cellE (word (inRow (colE blk) x) w)) =
      (quiet (idx u p rl i r w) >>= fun j => Model.Log.get m j >>= fun y => pure (.u64 y)) := by
  rw [evalL_cell hc.toSeen hc.plain.width (hush_word (hush_inRow (hush_colE hc.quietBlk) _) _) (eval_idx hc.plain hi hr hrl w) hm]
  simp only [Model.Target.idx, bind_assoc]

/-- Absorbing `M[prev] [+] M[row*]`. -/
theorem blockL_absorb (hc : LyraSeen c c' u p blk red) (h : Reads e n_cols rl prev rowa row) {i : U64} (hi : Has e "_i" (.u64 i)) (rest : List Stmt) (s : State) (m : Matrix) :
    execBlockL c ((List.finRange 12).map (absorbStmt blk) ++ rest) (put e s m) =
      (Model.LogTarget.absorbSum u p rl i prev rowa m s >>= fun s' => execBlockL c rest (put e s' m)) := by
  refine execBlockL_unroll (absorbStmt blk) _ (fun s => put e s m) ?_ rest s
  intro w s
  have hi' := hi.put (by decide) (by decide) s m
  have hrl' := h.rl.put (by decide) (by decide) s m
  have hm := h.shaped.has_matrix s m
  have e1 := evalL_inRow hc hi' (h.prev.put (by decide) (by decide) s m) hrl' hm w
  have e2 := evalL_inRow hc hi' (h.rowa.put (by decide) (by decide) s m) hrl' hm w
  unfold absorbStmt
  rw [execL_xorState hc.toSeen (x := quiet (idx u p rl i prev w) >>= fun j => Model.Log.get m j >>= fun x => quiet (idx u p rl i rowa w) >>= fun j => Model.Log.get m j >>= fun y =>
    pure (x + y)) (h.shaped.has_state s m)]
  · simp only [put_state, bind_assoc, pure_bind]
  · rw [evalL]
    simp only [evalListL, e1, e2, bind_assoc, pure_bind, wrapping_add_u64, quiet_pure]
    simp only [notes_wrapping_add, note_nil, pure_bind]

/-- `M[row][C-1-col] = M[prev][col] ^ rand`. -/
theorem blockL_write (hc : LyraSeen c c' u p blk red) (h : Reads e n_cols rl prev rowa row) {i : U64} (hi : Has e "_i" (.u64 i)) (rest : List Stmt) (s : State) (m : Matrix) :
    execBlockL c ((List.finRange 12).map (writeStmt blk) ++ rest) (put e s m) =
      (Model.Log.unroll12 (fun w m => do
        let j ← quiet (idx u p rl i prev w)
        let x ← Model.Log.get m j
        let j' ← quiet (idxRev u p n_cols rl i row w)
        Model.Log.put m j' (x ^^^ s[w])) m >>= fun m' => execBlockL c rest (put e s m')) := by
  refine execBlockL_unroll (writeStmt blk) _ (fun m => put e s m) ?_ rest m
  intro w m
  have hi' := hi.put (by decide) (by decide) s m
  have hrl' := h.rl.put (by decide) (by decide) s m
  have hm := h.shaped.has_matrix s m
  have e1 := evalL_inRow hc hi' (h.prev.put (by decide) (by decide) s m) hrl' hm w
  have e2 := eval_idxRev hc.plain hi' (h.n_cols.put (by decide) (by decide) s m) (h.row.put (by decide) (by decide) s m) hrl' w
  have e3 := evalL_stateE hc.toSeen (h.shaped.has_state s m) w (by omega)
  unfold writeStmt
  rw [execL_setCell hc.toSeen hc.plain.width (x := quiet (idx u p rl i prev w) >>= fun j => Model.Log.get m j >>= fun x => pure (x ^^^ s[w])) ?_
    (hush_word (hush_inRow (hush_revE hc.quietBlk) _) _) e2 hm]
  · simp only [put_matrix, bind_assoc, pure_bind, Model.Target.idxRev]
  · rw [evalL]
    simp only [e1, e3, bind_assoc, pure_bind, hc.toHush.op, xor_u64, asTy, quiet_pure]
    rfl

/-- `M[r][col] ^= state[v]`. -/
theorem execL_xorInRow (hc : LyraSeen c c' u p blk red) {i : U64} (hi : Has e "_i" (.u64 i)) {x : String} {r : I64} (hr : Has e x (.i64 r))
    (hrl : Has e "row_len_int64" (.i64 rl)) (hm : Has e "whole_matrix" (.words64 m)) (hs : Has e "state" (.words64 s.toArray)) (w : Fin 12) (v : Nat) (hv : v < 16) :
    execL c (.assignOp .xor (cellE (word (inRow (colE blk) x) w)) (stateE v)) e =
      ((quiet (idx u p rl i r w) >>= fun j => Model.Log.get m j >>= fun x => Model.Log.put m j (x ^^^ s[v])) >>= fun m' =>
        pure (.next (e.upd "whole_matrix" (.words64 m')))) := by
  rw [execL_xorCell hc.toSeen hc.plain.width (hush_word (hush_inRow (hush_colE hc.quietBlk) _) _) (eval_idx hc.plain hi hr hrl w) hm hs v hv]
  simp only [Model.Target.idx, bind_assoc]

/-- `M[row*][col] ^= rotW(rand)`. -/
theorem blockL_rot (hc : LyraSeen c c' u p blk red) (h : Reads e n_cols rl prev rowa row) {i : U64} (hi : Has e "_i" (.u64 i)) (rest : List Stmt) (s : State) (m : Matrix) :
    execBlockL c ((List.finRange 12).map (rotStmt blk) ++ rest) (put e s m) =
      (Model.LogTarget.xorRotW u p rl i rowa s m >>= fun m' => execBlockL c rest (put e s m')) := by
  refine execBlockL_unroll (rotStmt blk) _ (fun m => put e s m) ?_ rest m
  intro w m
  unfold rotStmt
  rw [execL_xorInRow hc (hi.put (by decide) (by decide) s m) (h.rowa.put (by decide) (by decide) s m) (h.rl.put (by decide) (by decide) s m)
    (h.shaped.has_matrix s m) (h.shaped.has_state s m) w _ (by omega)]
  simp only [put_matrix, bind_assoc]

/-- `M[row][col] ^= rand`. -/
theorem blockL_row (hc : LyraSeen c c' u p blk red) (h : Reads e n_cols rl prev rowa row) {i : U64} (hi : Has e "_i" (.u64 i)) (rest : List Stmt) (s : State) (m : Matrix) :
    execBlockL c ((List.finRange 12).map (rowStmt blk) ++ rest) (put e s m) =
      (Model.Log.unroll12 (fun w m => do
        let j ← quiet (idx u p rl i row w)
        let x ← Model.Log.get m j
        Model.Log.put m j (x ^^^ s[w])) m >>= fun m' => execBlockL c rest (put e s m')) := by
  refine execBlockL_unroll (rowStmt blk) _ (fun m => put e s m) ?_ rest m
  intro w m
  unfold rowStmt
  rw [execL_xorInRow hc (hi.put (by decide) (by decide) s m) (h.row.put (by decide) (by decide) s m) (h.rl.put (by decide) (by decide) s m)
    (h.shaped.has_matrix s m) (h.shaped.has_state s m) w _ (by omega)]
  simp only [put_matrix, bind_assoc]
  rfl

omit [Width u] in
theorem blockL_reduced (hc : LyraSeen c c' u p blk red) (h : Shaped e) (rest : List Stmt) (s : State) (m : Matrix) :
    execBlockL c (reducedStmt red :: rest) (put e s m) = (Model.Log.round s >>= fun s' => execBlockL c rest (put e s' m)) := by
  rw [execBlockL_next (execL_reduced hc (h.has_state s m))]
  simp only [put_state]

/-! ## The loops -/

/-- A loop over the columns. -/
theorem execL_cols (hc : Seen c c') (hn : Has e "n_cols" (.u64 n_cols)) (body : List Stmt) (f : U64 → State → Matrix → Logged (State × Matrix))
    (hb : ∀ i s m, execBlockL c body (("_i", .u64 i) :: put e s m) = (f i s m >>= fun r => pure (.next (("_i", .u64 i) :: put e r.1 r.2)))) (s : State) (m : Matrix) :
    execL c (.forIn "_i" (.lit 0) (.var "n_cols") false body) (put e s m) =
      (Model.Log.forLoop 0 n_cols.toNat (fun i (r : State × Matrix) => f (BitVec.ofNat 64 i) r.1 r.2) (s, m) >>= fun r => pure (.next (put e r.1 r.2))) := by
  rw [execL_for_u64 hc "_i" body (hn.put (by decide) (by decide) s m)]
  rw [forLoopL_map (fun r : State × Matrix => put e r.1 r.2) 0 n_cols.toNat (fun i (r : State × Matrix) => f (BitVec.ofNat 64 i) r.1 r.2) _ _ (s, m)]
  · simp only [bind_assoc, pure_bind]
  · intro k r _ _
    refine forBodyL_next (f := fun r : State × Matrix => put e r.1 r.2) (fun r' => ?_) (hb _ _ _)
    rw [put_length, put_length]

theorem execBlockL_nil (env : Env) : execBlockL c [] env = pure (.next env) := by rw [execBlockL]

theorem execL_setupCols (hc : LyraSeen c c' u p blk red) (h : Reads e n_cols rl prev rowa row) (s : State) (m : Matrix) :
    execL c (.forIn "_i" (.lit 0) (.var "n_cols") false (setupCols blk red)) (put e s m) =
      (Model.LogTarget.duplexRowSetup u p n_cols rl prev rowa row s m >>= fun r => pure (.next (put e r.1 r.2))) := by
  refine execL_cols hc.toSeen h.n_cols _ (fun i state m => do
    let state ← Model.LogTarget.absorbSum u p rl i prev rowa m state
    let state ← Model.Log.round state
    let m ← Model.Log.unroll12 (fun w m => do
      let j ← quiet (idx u p rl i prev w)
      let x ← Model.Log.get m j
      let j' ← quiet (idxRev u p n_cols rl i row w)
      Model.Log.put m j' (x ^^^ state[w])) m
    let m ← Model.LogTarget.xorRotW u p rl i rowa state m
    pure (state, m)) ?_ s m
  intro i s m
  have h' := h.cons (.u64 i)
  have hi := Has.head "_i" (.u64 i) e
  rw [← put_cons _ _ _ _ _ (by decide) (by decide), setupCols, blockL_absorb hc h' hi]
  simp only [blockL_reduced hc h'.shaped, blockL_write hc h' hi, blockL_rot hc h' hi, bind_assoc, pure_bind, execBlockL_nil]
  simp only [put_cons _ _ _ _ _ (show "state" ≠ "_i" by decide) (show "whole_matrix" ≠ "_i" by decide)]

theorem execL_wanderCols (hc : LyraSeen c c' u p blk red) (h : Reads e n_cols rl prev rowa row) (s : State) (m : Matrix) :
    execL c (.forIn "_i" (.lit 0) (.var "n_cols") false (wanderCols blk red)) (put e s m) =
      (Model.LogTarget.duplexRow u p n_cols rl prev rowa row s m >>= fun r => pure (.next (put e r.1 r.2))) := by
  refine execL_cols hc.toSeen h.n_cols _ (fun i state m => do
    let state ← Model.LogTarget.absorbSum u p rl i prev rowa m state
    let state ← Model.Log.round state
    let m ← Model.Log.unroll12 (fun w m => do
      let j ← quiet (idx u p rl i row w)
      let x ← Model.Log.get m j
      Model.Log.put m j (x ^^^ state[w])) m
    let m ← Model.LogTarget.xorRotW u p rl i rowa state m
    pure (state, m)) ?_ s m
  intro i s m
  have h' := h.cons (.u64 i)
  have hi := Has.head "_i" (.u64 i) e
  rw [← put_cons _ _ _ _ _ (by decide) (by decide), wanderCols, blockL_absorb hc h' hi]
  simp only [blockL_reduced hc h'.shaped, blockL_row hc h' hi, blockL_rot hc h' hi, bind_assoc, pure_bind, execBlockL_nil]
  simp only [put_cons _ _ _ _ _ (show "state" ≠ "_i" by decide) (show "whole_matrix" ≠ "_i" by decide)]

theorem evalL_row0 (hc : LyraSeen c c' u p blk red) {i : U64} (hi : Has e "_i" (.u64 i)) (hm : Has e "whole_matrix" (.words64 m)) (w : Fin 12) :
    evalL c e none (cellE (word (colE blk) w)) = (quiet (idxRow0 u p i w) >>= fun j => Model.Log.get m j >>= fun y => pure (.u64 y)) := by
  rw [evalL_cell hc.toSeen hc.plain.width (hush_word (hush_colE hc.quietBlk) _) (eval_idxRow0 hc.plain hi w) hm]
  simp only [Model.Target.idxRow0, bind_assoc]

theorem execL_row1Cols (hc : LyraSeen c c' u p blk red) (hsh : Shaped e) (hn : Has e "n_cols" (.u64 n_cols)) (hrl : Has e "row_len_int64" (.i64 rl)) (s : State) (m : Matrix) :
    execL c (.forIn "_i" (.lit 0) (.var "n_cols") false (row1Cols blk red)) (put e s m) =
      (Model.LogTarget.duplexRow1 u p n_cols rl s m >>= fun r => pure (.next (put e r.1 r.2))) := by
  refine execL_cols hc.toSeen hn _ (fun i state m => do
    let state ← Model.Log.unroll12 (fun w (state : State) => do
      let j ← quiet (idxRow0 u p i w)
      let x ← Model.Log.get m j
      pure (state.set w (state[w] ^^^ x))) state
    let state ← Model.Log.round state
    let m ← Model.Log.unroll12 (fun w m => do
      let j ← quiet (idxRow0 u p i w)
      let x ← Model.Log.get m j
      let j' ← quiet (idxRow1Rev u p n_cols rl i w)
      Model.Log.put m j' (x ^^^ state[w])) m
    pure (state, m)) ?_ s m
  intro i s m
  have hsh' := hsh.cons (x := "_i") (by decide) (by decide) (.u64 i)
  have hi := Has.head "_i" (.u64 i) e
  have hn' := hn.cons (y := "_i") (by decide) (.u64 i)
  have hrl' := hrl.cons (y := "_i") (by decide) (.u64 i)
  rw [← put_cons _ _ _ _ _ (by decide) (by decide), row1Cols]
  rw [execBlockL_unroll (fun w => .assignOp .xor (stateE w) (cellE (word (colE blk) w))) (fun w (state : State) => do
      let j ← quiet (idxRow0 u p i w)
      let x ← Model.Log.get m j
      pure (state.set w (state[w] ^^^ x))) (fun s => put (("_i", .u64 i) :: e) s m)]
  · simp only [blockL_reduced hc hsh', bind_assoc]
    refine bind_congr fun s => ?_
    refine bind_congr fun s => ?_
    rw [execBlockL_unroll _ (fun w m => do
      let j ← quiet (idxRow0 u p i w)
      let x ← Model.Log.get m j
      let j' ← quiet (idxRow1Rev u p n_cols rl i w)
      Model.Log.put m j' (x ^^^ s[w])) (fun m => put (("_i", .u64 i) :: e) s m)]
    · simp only [execBlockL_nil, pure_bind, put_cons _ _ _ _ _ (show "state" ≠ "_i" by decide) (show "whole_matrix" ≠ "_i" by decide)]
    · intro w m
      have hi' := hi.put (by decide) (by decide) s m
      have hm := hsh'.has_matrix s m
      have e1 := evalL_row0 hc hi' hm w
      have e3 := evalL_stateE hc.toSeen (hsh'.has_state s m) w (by omega)
      rw [execL_setCell hc.toSeen hc.plain.width (x := quiet (idxRow0 u p i w) >>= fun j => Model.Log.get m j >>= fun x => pure (x ^^^ s[w])) ?_
        (hush_word (by simp [hushE, hush_revE hc.quietBlk]) _)
        (eval_idxRow1Rev hc.plain hi' (hn'.put (by decide) (by decide) s m) (hrl'.put (by decide) (by decide) s m) w) hm]
      · simp only [put_matrix, bind_assoc, pure_bind, Model.Target.idxRow1Rev]
      · rw [evalL]
        simp only [e1, e3, bind_assoc, pure_bind, hc.toHush.op, xor_u64, asTy, quiet_pure]
        rfl
  · intro w s
    rw [execL_xorState hc.toSeen (x := quiet (idxRow0 u p i w) >>= fun j => Model.Log.get m j) (hsh'.has_state s m)]
    · simp only [put_state, bind_assoc, pure_bind]
    · rw [evalL_row0 hc (hi.put (by decide) (by decide) s m) (hsh'.has_matrix s m)]
      simp only [bind_assoc]

end Source

import Verif.Proofs.LogErase
import Verif.Source.Log

/-! The notes do not change the outcome: without them, `Source/Log.lean` is `Source/Semantics.lean`. -/

namespace Source
open Rust
open Model.Log (LoggedOf quiet)
open Proofs.Log

variable {ε : Type}

theorem _root_.Proofs.Log.Erases.note {α : Type} (c : LCtx ε) (as : List Access) {f : Unit → LoggedOf ε α} {g : Res α} (h : Erases (f ()) g) :
    Erases (Source.note c as >>= f) g := fun log => h (log ++ as.flatMap c.obs)

/-- The same surroundings, without notes. -/
structure Fits (c : LCtx ε) (c' : Ctx) : Prop where
  width : c.u = c'.u
  prof : c.p = c'.p
  call : ∀ f vs, Erases (c.call f vs) (c'.call f vs)

variable {c : LCtx ε} {c' : Ctx}

mutual
theorem evalL_erases (h : Fits c c') (env : Env) (want : Option Ty) : (e : Expr) → Erases (evalL c env want e) (eval c' env want e)
  | .lit n => by
    rw [evalL, eval]
    exact .quiet _
  | .var x => by
    rw [evalL, eval]
    exact .bind (.quiet _) fun v => .quiet _
  | .const x => by
    rw [evalL, eval]
    exact h.call _ _
  | .neg e => by
    rw [evalL, eval, h.prof]
    exact .bind (evalL_erases h env none e) fun v => .bind (.quiet _) fun r => .quiet _
  | .bin op a b => by
    rw [evalL, eval, h.prof, h.width]
    exact .bind (evalL_erases h env none a) fun x => .bind (evalL_erases h env none b) fun y => .note c _ (.bind (.quiet _) fun r => .quiet _)
  | .cast e t => by
    rw [evalL, eval, h.width]
    exact .bind (evalL_erases h env none e) fun v => .bind (.quiet _) fun r => .pure _
  | .index e i => by
    rw [evalL, eval]
    exact .bind (evalL_erases h env none e) fun v => .bind (evalL_erases h env none i) fun x => .bind (.quiet _) fun k => .note c _ (.quiet _)
  | .slice e lo hi => by
    rw [evalL, eval]
    exact .bind (evalL_erases h env none e) fun v => .bind (evalL_erases h env none lo) fun a => .bind (evalL_erases h env none hi) fun b =>
      .bind (.quiet _) fun a => .bind (.quiet _) fun b => .note c _ (.quiet _)
  | .prefix e hi => by
    rw [evalL, eval]
    exact .bind (evalL_erases h env none e) fun v => .bind (evalL_erases h env none hi) fun b => .bind (.quiet _) fun b => .note c _ (.quiet _)
  | .field e f => by
    rw [evalL, eval]
    exact .bind (evalL_erases h env none e) fun v => .quiet _
  | .call f args => by
    rw [evalL, eval]
    refine .bind (evalListL_erases h env args) fun vs => ?_
    split
    · exact .quiet _
    · exact .note c _ (h.call _ _)
  | .method e m args => by
    rw [evalL, eval]
    refine .bind (evalL_erases h env none e) fun v => .bind (evalListL_erases h env args) fun vs => ?_
    have key : Erases (do
        let r ← quiet (applyMethod m v vs)
        Source.note c (methodNotes e m vs r)
        pure r) (applyMethod m v vs >>= pure) := .bind (.quiet _) fun r => .note c _ (.pure _)
    rwa [bind_pure] at key
  | .vecOf x n => by
    rw [evalL, eval, h.width]
    exact .bind (evalL_erases h env none x) fun v => .bind (evalL_erases h env none n) fun b => .bind (.quiet _) fun b => .note c _ (.quiet _)
  | .arrayOf x n => by
    rw [evalL, eval, h.width]
    exact .bind (evalL_erases h env none x) fun v => .quiet _
  | .list es => by
    rw [evalL, eval]
    exact .bind (evalListL_erases h env es) fun v => .quiet _
  | .struct fields es => by
    rw [evalL, eval]
    exact .bind (evalFieldsL_erases h env fields es) fun v => .pure _

theorem evalListL_erases (h : Fits c c') (env : Env) : (es : List Expr) → Erases (evalListL c env es) (evalList c' env es)
  | [] => by
    rw [evalListL, evalList]
    exact .pure _
  | e :: es => by
    rw [evalListL, evalList]
    exact .bind (evalL_erases h env none e) fun v => .bind (evalListL_erases h env es) fun vs => .pure _

theorem evalFieldsL_erases (h : Fits c c') (env : Env) (fields : List (String × Ty)) :
    (es : List Expr) → Erases (evalFieldsL c env fields es) (evalFields c' env fields es)
  | [] => by
    rw [evalFieldsL, evalFields]
    exact .pure _
  | e :: es => by
    match fields with
    | [] =>
      rw [evalFieldsL, evalFields]
      exact .quiet _
    | (f, t) :: fields =>
      rw [evalFieldsL, evalFields]
      exact .bind (evalL_erases h env (some t) e) fun v => .bind (evalFieldsL_erases h env fields es) fun vs => .pure _
end

theorem placeL_erases (h : Fits c c') (env : Env) : (e : Expr) → Erases (placeL c env e) (place c' env e)
  | .var x => by
    rw [placeL, place]
    exact .pure _
  | .index e i => by
    rw [placeL, place]
    exact .bind (placeL_erases h env e) fun pl => .bind (evalL_erases h env none i) fun x => .bind (.quiet _) fun k => .pure _
  | .field e f => by
    rw [placeL, place]
    exact .bind (placeL_erases h env e) fun pl => .pure _
  | .lit n => .quiet _
  | .const x => .quiet _
  | .neg e => .quiet _
  | .bin op a b => .quiet _
  | .cast e t => .quiet _
  | .slice e lo hi => .quiet _
  | .prefix e hi => .quiet _
  | .call f args => .quiet _
  | .method e m args => .quiet _
  | .vecOf x n => .quiet _
  | .arrayOf x n => .quiet _
  | .list es => .quiet _
  | .struct fields es => .quiet _

mutual
theorem execL_erases (h : Fits c c') : (s : Stmt) → (env : Env) → Erases (execL c s env) (exec c' s env)
  | .letVar x t e, env => by
    rw [execL, exec]
    exact .bind (evalL_erases h env t e) fun v => .pure _
  | .letSnd x e, env => by
    rw [execL, exec]
    refine .bind (evalL_erases h env none e) fun v => ?_
    cases v <;> first | exact .pure _ | exact .quiet _
  | .assign l e, env => by
    rw [execL, exec]
    exact .bind (evalL_erases h env none e) fun v => .bind (placeL_erases h env l) fun pl => .note c _ (.bind (.quiet _) fun r => .pure _)
  | .assignOp op l e, env => by
    rw [execL, exec, h.width, h.prof]
    exact .bind (evalL_erases h env none e) fun v => .bind (placeL_erases h env l) fun pl => .note c _ (.bind (.quiet _) fun r => .note c _ (.bind (.quiet _) fun r =>
      .note c _ (.bind (.quiet _) fun r => .pure _)))
  | .mutate l m args, env => by
    rw [execL.eq_def, exec.eq_def]
    dsimp only
    split
    · exact .bind (placeL_erases h env _) fun pl => .bind (.quiet _) fun r => .bind (evalL_erases h env none _) fun v => .bind (.quiet _) fun k =>
        .note c _ (.bind (.quiet _) fun r => .bind (evalListL_erases h env _) fun vs =>
          match vs with
          | [] => .quiet _
          | [s] => .bind (.quiet _) fun r => .bind (.quiet _) fun r => .pure _
          | _ :: _ :: _ => .quiet _)
    · rename_i hne
      rw [h.width]
      split
      · exact (hne _ _ rfl rfl).elim
      exact .bind (placeL_erases h env _) fun pl => .bind (evalListL_erases h env _) fun vs => .bind (.quiet _) fun r => .bind (.quiet _) fun r =>
        .bind (.quiet _) fun r => .pure _
  | .panic, env => by
    rw [execL, exec]
    exact .quiet _
  | .ifElse b t e, env => by
    rw [execL, exec]
    refine .bind (evalL_erases h env none b) fun v => ?_
    match v with
    | .bool true => exact .note c _ (execScopeL_erases h _ t env)
    | .bool false => exact .note c _ (execScopeL_erases h _ e env)
    | .lit _ | .u8 _ | .u32 _ | .u64 _ | .i64 _ | .usize _ | .bytes _ | .words32 _ | .words64 _ | .pair _ _ | .struct _ => exact .quiet _
  | .forIn x lo hi incl body, env => by
    rw [execL, exec]
    refine .bind (evalL_erases h env none lo) fun lo => .bind (evalL_erases h env none hi) fun hi => .bind (.quiet _) fun a => .bind (.quiet _) fun b => ?_
    dsimp only
    refine .note c _ (.bind (.forLoop (fun k env => ?_) _ _ _) fun r => .pure _)
    refine .bind (execScopeL_erases h _ body _) fun f => ?_
    split
    · exact .pure _
    · exact .quiet _
  | .loop body, env => by
    rw [execL, exec]
    refine .bind (.loop (fun env => ?_) _) fun r => .pure _
    refine .bind (execScopeL_erases h _ body _) fun f => ?_
    split
    · exact .pure _
    · exact .pure _
  | .break, env => by
    rw [execL, exec]
    exact .pure _

theorem execBlockL_erases (h : Fits c c') : (ss : List Stmt) → (env : Env) → Erases (execBlockL c ss env) (execBlock c' ss env)
  | [], env => by
    rw [execBlockL, execBlock]
    exact .pure _
  | s :: ss, env => by
    rw [execBlockL, execBlock]
    refine .bind (execL_erases h s env) fun f => ?_
    split
    · exact execBlockL_erases h ss _
    · exact .pure _

theorem execScopeL_erases (h : Fits c c') (n : Nat) : (ss : List Stmt) → (env : Env) → Erases (execScopeL c n ss env) (execScope c' n ss env)
  | ss, env => by
    rw [execScopeL, execScope]
    refine .bind (execBlockL_erases h ss env) fun f => ?_
    split
    · exact .pure _
    · exact .pure _
end

theorem runFnL_erases (h : Fits c c') (f : Fn) (args : List Val) : Erases (runFnL c f args) (runFn c' f args) := by
  unfold runFnL runFn
  refine .bind (.quiet _) fun env => .bind (execBlockL_erases h _ env) fun r => ?_
  split
  · exact evalL_erases h _ _ _
  · exact .quiet _

/-- Running a function with notes has the outcome of running it. -/
theorem callL_erases (obs : Access → List ε) (fns : List Fn) (ext : String → Option (List U8 → List U8)) (u : Nat) (p : Profile) (depth : Nat)
    (name : String) (args : List Val) : Erases (callL obs fns ext u p depth name args) (call fns ext u p depth name args) := by
  induction depth generalizing name args with
  | zero =>
    rw [callL, call]
    exact .quiet _
  | succ d ih =>
    unfold callL call
    generalize fns.find? (·.name = name) = o
    match o with
    | some f => exact runFnL_erases (c := ⟨u, p, obs, callL obs fns ext u p d⟩) (c' := ⟨u, p, call fns ext u p d⟩) ⟨rfl, rfl, ih⟩ f _
    | none => exact .quiet _

end Source

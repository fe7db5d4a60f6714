import Verif.Source.Log

/-! Code of which the observer sees nothing: with notes it runs as it does without. -/

namespace Source
open Rust
open Model.Log (LoggedOf quiet)

variable {ε α β σ : Type}

theorem quiet_bind (m : Res α) (f : α → Res β) : (quiet (m >>= f) : LoggedOf ε β) = (quiet m >>= fun a => quiet (f a)) := by
  funext log
  show ((m >>= f) >>= fun b => pure (b, log)) = ((m >>= fun a => pure (a, log)) >>= fun x => quiet (f x.1) x.2)
  simp only [bind_assoc, pure_bind]
  rfl

theorem quiet_pure (a : α) : (quiet (pure a) : LoggedOf ε α) = pure a := rfl

theorem note_bind_nil (c : LCtx ε) (as : List Access) (f : Unit → LoggedOf ε α) (h : as.flatMap c.obs = []) : (note c as >>= f) = f () := by
  funext log
  show f () (log ++ as.flatMap c.obs) = f () log
  rw [h, List.append_nil]

theorem quiet_forLoop (i n : Nat) (body : Nat → σ → Res σ) (s : σ) :
    (Model.Log.forLoop i n (fun k s => quiet (body k s)) s : LoggedOf ε σ) = quiet (forLoop i n body s) := by
  induction n generalizing i s with
  | zero => rfl
  | succ n ih =>
    funext log
    unfold Model.Log.forLoop forLoop quiet
    simp only [bind_assoc, pure_bind]
    refine bind_congr fun s' => ?_
    exact congrFun (ih (i + 1) s') log

/-- What the observer does not see: accesses to the variables in `qv` (at computed positions, or at others), calls of the functions in
`qf`. -/
structure Hush (c : LCtx ε) (c' : Ctx) (qv : String → Bool → Bool) (qf : String → Bool) : Prop where
  width : c.u = c'.u
  prof : c.p = c'.p
  read : ∀ x b k, qv x b = true → c.obs (.read x b k) = []
  write : ∀ x b k, qv x b = true → c.obs (.write x b k) = []
  split : ∀ x k n, qv x true = true → c.obs (.split x k n) = []
  part : ∀ a b, c.obs (.part a b) = []
  alloc : ∀ n, c.obs (.alloc n) = []
  divide : ∀ x y, c.obs (.divide x y) = []
  shift : ∀ n, c.obs (.shift n) = []
  branch : ∀ b, c.obs (.branch b) = []
  range : ∀ n, c.obs (.range n) = []
  called : ∀ f, qf f = true → c.obs (.call f) = []
  call : ∀ f vs, qf f = true → c.call f vs = quiet (c'.call f vs)

mutual
/-- Nothing is seen of the expression. -/
def hushE (qv : String → Bool → Bool) (qf : String → Bool) : Expr → Bool
  | .lit _ => true
  | .var _ => true
  | .const x => qf x
  | .neg e => hushE qv qf e
  | .bin _ a b => hushE qv qf a && hushE qv qf b
  | .cast e _ => hushE qv qf e
  | .index e i => hushE qv qf e && hushE qv qf i && qv (rootOf e) (isComputed i)
  | .slice e lo hi => hushE qv qf e && hushE qv qf lo && hushE qv qf hi
  | .prefix e hi => hushE qv qf e && hushE qv qf hi
  | .field e _ => hushE qv qf e
  | .call f args => hushEs qv qf args && (f == "Vec::with_capacity" || qf f)
  | .method e m args => hushE qv qf e && hushEs qv qf args && (m != "split_at" || qv (rootOf e) true)
  | .vecOf x n => hushE qv qf x && hushE qv qf n
  | .arrayOf x _ => hushE qv qf x
  | .list es => hushEs qv qf es
  | .struct _ es => hushEs qv qf es

/-- Nothing is seen of the expressions. -/
def hushEs (qv : String → Bool → Bool) (qf : String → Bool) : List Expr → Bool
  | [] => true
  | e :: es => hushE qv qf e && hushEs qv qf es
end

/-- Nothing is seen of finding the place. -/
def hushP (qv : String → Bool → Bool) (qf : String → Bool) : Expr → Bool
  | .index e i => hushP qv qf e && hushE qv qf i
  | .field e _ => hushP qv qf e
  | _ => true

/-- Nothing is seen of reading or writing the place. -/
def hushL (qv : String → Bool → Bool) : Expr → Bool
  | .index e i => qv (rootOf e) (isComputed i)
  | _ => true

mutual
/-- Nothing is seen of the statement. -/
def hushS (qv : String → Bool → Bool) (qf : String → Bool) : Stmt → Bool
  | .letVar _ _ e => hushE qv qf e
  | .letSnd _ e => hushE qv qf e
  | .assign l e => hushE qv qf e && hushP qv qf l && hushL qv l
  | .assignOp _ l e => hushE qv qf e && hushP qv qf l && hushL qv l
  | .mutate l _ args => hushEs qv qf args && (match l with
    | .prefix l hi => hushP qv qf l && hushE qv qf hi
    | l => hushP qv qf l)
  | .panic => true
  | .ifElse b t e => hushE qv qf b && hushSs qv qf t && hushSs qv qf e
  | .forIn _ lo hi _ body => hushE qv qf lo && hushE qv qf hi && hushSs qv qf body
  | .loop _ => false
  | .break => true

/-- Nothing is seen of the statements. -/
def hushSs (qv : String → Bool → Bool) (qf : String → Bool) : List Stmt → Bool
  | [] => true
  | s :: ss => hushS qv qf s && hushSs qv qf ss
end

variable {c : LCtx ε} {c' : Ctx} {qv : String → Bool → Bool} {qf : String → Bool}

theorem note_one (a : Access) (ha : c.obs a = []) (f : Unit → LoggedOf ε α) : (note c [a] >>= f) = f () :=
  note_bind_nil c _ f (by simp [ha])

theorem Hush.method (h : Hush c c' qv qf) {e : Expr} {m : String} (hm : (m != "split_at" || qv (rootOf e) true) = true) (vs : List Val) (r : Val)
    (f : Unit → LoggedOf ε α) : (note c (methodNotes e m vs r) >>= f) = f () := by
  refine note_bind_nil c _ f ?_
  unfold methodNotes
  split
  · simp only [bne_self_eq_false, Bool.false_or] at hm
    simp [h.split _ _ _ hm]
  · simp [h.alloc]
  · simp [h.alloc]
  · simp [h.alloc]
  · rfl

theorem Hush.op (h : Hush c c' qv qf) (op : BinOp) (x y : Val) (f : Unit → LoggedOf ε α) : (note c (opNotes op x y) >>= f) = f () := by
  refine note_bind_nil c _ f ?_
  cases op <;> simp [opNotes, h.divide, h.shift]

mutual
theorem evalL_hush (h : Hush c c' qv qf) (env : Env) (want : Option Ty) : (e : Expr) → hushE qv qf e = true → evalL c env want e = quiet (eval c' env want e)
  | .lit n, _ => by
    rw [evalL, eval]
  | .var x, _ => by
    rw [evalL, eval, quiet_bind]
  | .const x, he => by
    rw [hushE] at he
    rw [evalL, eval, h.call _ _ he]
  | .neg e, he => by
    rw [hushE] at he
    rw [evalL, eval, evalL_hush h env none e he, h.prof]
    simp only [quiet_bind]
  | .bin op a b, he => by
    simp only [hushE, Bool.and_eq_true] at he
    rw [evalL, eval, evalL_hush h env none a he.1, evalL_hush h env none b he.2, h.prof, h.width]
    simp only [quiet_bind, h.op]
  | .cast e t, he => by
    rw [hushE] at he
    rw [evalL, eval, evalL_hush h env none e he, h.width]
    simp only [quiet_bind, quiet_pure]
  | .index e i, he => by
    simp only [hushE, Bool.and_eq_true] at he
    rw [evalL, eval, evalL_hush h env none e he.1.1, evalL_hush h env none i he.1.2]
    simp only [quiet_bind, note_one _ (h.read _ _ _ he.2)]
  | .slice e lo hi, he => by
    simp only [hushE, Bool.and_eq_true] at he
    rw [evalL, eval, evalL_hush h env none e he.1.1, evalL_hush h env none lo he.1.2, evalL_hush h env none hi he.2]
    simp only [quiet_bind, note_one _ (h.part _ _)]
  | .prefix e hi, he => by
    simp only [hushE, Bool.and_eq_true] at he
    rw [evalL, eval, evalL_hush h env none e he.1, evalL_hush h env none hi he.2]
    simp only [quiet_bind, note_one _ (h.part _ _)]
  | .field e f, he => by
    rw [hushE] at he
    rw [evalL, eval, evalL_hush h env none e he]
    simp only [quiet_bind]
  | .call f args, he => by
    simp only [hushE, Bool.and_eq_true, Bool.or_eq_true, beq_iff_eq] at he
    rw [evalL, eval, evalListL_hush h env args he.1, quiet_bind]
    refine bind_congr fun vs => ?_
    split
    · rfl
    · rename_i hf
      have hq : qf f = true := he.2.resolve_left hf
      rw [note_one _ (h.called _ hq), h.call _ _ hq]
  | .method e m args, he => by
    simp only [hushE, Bool.and_eq_true] at he
    rw [evalL, eval, evalL_hush h env none e he.1.1, evalListL_hush h env args he.1.2]
    simp only [h.method he.2, bind_pure, quiet_bind]
  | .vecOf x n, he => by
    simp only [hushE, Bool.and_eq_true] at he
    rw [evalL, eval, evalL_hush h env none x he.1, evalL_hush h env none n he.2, h.width]
    simp only [quiet_bind, note_one _ (h.alloc _)]
  | .arrayOf x n, he => by
    rw [hushE] at he
    rw [evalL, eval, evalL_hush h env none x he, h.width]
    simp only [quiet_bind]
  | .list es, he => by
    rw [hushE] at he
    rw [evalL, eval, evalListL_hush h env es he]
    simp only [quiet_bind]
  | .struct fields es, he => by
    rw [hushE] at he
    rw [evalL, eval, evalFieldsL_hush h env fields es he]
    simp only [quiet_bind, quiet_pure]

theorem evalListL_hush (h : Hush c c' qv qf) (env : Env) : (es : List Expr) → hushEs qv qf es = true → evalListL c env es = quiet (evalList c' env es)
  | [], _ => by
    rw [evalListL, evalList, quiet_pure]
  | e :: es, he => by
    simp only [hushEs, Bool.and_eq_true] at he
    rw [evalListL, evalList, evalL_hush h env none e he.1, evalListL_hush h env es he.2]
    simp only [quiet_bind, quiet_pure]

theorem evalFieldsL_hush (h : Hush c c' qv qf) (env : Env) (fields : List (String × Ty)) :
    (es : List Expr) → hushEs qv qf es = true → evalFieldsL c env fields es = quiet (evalFields c' env fields es)
  | [], _ => by
    rw [evalFieldsL, evalFields, quiet_pure]
  | e :: es, he => by
    simp only [hushEs, Bool.and_eq_true] at he
    match fields with
    | [] =>
      rw [evalFieldsL, evalFields]
    | (f, t) :: fields =>
      rw [evalFieldsL, evalFields, evalL_hush h env (some t) e he.1, evalFieldsL_hush h env fields es he.2]
      simp only [quiet_bind, quiet_pure]
end

theorem placeL_hush (h : Hush c c' qv qf) (env : Env) : (e : Expr) → hushP qv qf e = true → placeL c env e = quiet (place c' env e)
  | .var x, _ => rfl
  | .index e i, he => by
    simp only [hushP, Bool.and_eq_true] at he
    rw [placeL, place, placeL_hush h env e he.1, evalL_hush h env none i he.2]
    simp only [quiet_bind, quiet_pure]
  | .field e f, he => by
    rw [hushP] at he
    rw [placeL, place, placeL_hush h env e he]
    simp only [quiet_bind, quiet_pure]
  | .lit n, _ => rfl
  | .const x, _ => rfl
  | .neg e, _ => rfl
  | .bin op a b, _ => rfl
  | .cast e t, _ => rfl
  | .slice e lo hi, _ => rfl
  | .prefix e hi, _ => rfl
  | .call f args, _ => rfl
  | .method e m args, _ => rfl
  | .vecOf x n, _ => rfl
  | .arrayOf x n, _ => rfl
  | .list es, _ => rfl
  | .struct fields es, _ => rfl

theorem Hush.reads (h : Hush c c' qv qf) {l : Expr} (hl : hushL qv l = true) (pl : String × List Step) (f : Unit → LoggedOf ε α) :
    (note c (readNotes l pl) >>= f) = f () := by
  refine note_bind_nil c _ f ?_
  unfold readNotes element
  split
  · rename_i he
    split at he
    · cases he
      simp [h.read _ _ _ hl]
    · cases he
  · rfl

theorem Hush.writes (h : Hush c c' qv qf) {l : Expr} (hl : hushL qv l = true) (pl : String × List Step) (f : Unit → LoggedOf ε α) :
    (note c (writeNotes l pl) >>= f) = f () := by
  refine note_bind_nil c _ f ?_
  unfold writeNotes element
  split
  · rename_i he
    split at he
    · cases he
      simp [h.write _ _ _ hl]
    · cases he
  · rfl

mutual
theorem execL_hush (h : Hush c c' qv qf) : (s : Stmt) → (env : Env) → hushS qv qf s = true → execL c s env = quiet (exec c' s env)
  | .letVar x t e, env, hs => by
    rw [hushS] at hs
    rw [execL, exec, evalL_hush h env t e hs]
    simp only [quiet_bind, quiet_pure]
  | .letSnd x e, env, hs => by
    rw [hushS] at hs
    rw [execL, exec, evalL_hush h env none e hs]
    simp only [quiet_bind]
    refine bind_congr fun v => ?_
    cases v <;> rfl
  | .assign l e, env, hs => by
    simp only [hushS, Bool.and_eq_true] at hs
    rw [execL, exec, evalL_hush h env none e hs.1.1, placeL_hush h env l hs.1.2]
    simp only [h.writes hs.2, quiet_bind, quiet_pure]
  | .assignOp op l e, env, hs => by
    simp only [hushS, Bool.and_eq_true] at hs
    rw [execL, exec, evalL_hush h env none e hs.1.1, placeL_hush h env l hs.1.2, h.width, h.prof]
    simp only [h.reads hs.2, h.writes hs.2, h.op, quiet_bind, quiet_pure]
  | .mutate l m args, env, hs => by
    simp only [hushS, Bool.and_eq_true] at hs
    obtain ⟨ha, hl⟩ := hs
    rw [execL.eq_def, exec.eq_def]
    dsimp only
    split
    · simp only [Bool.and_eq_true] at hl
      rw [placeL_hush h env _ hl.1, evalL_hush h env none _ hl.2, evalListL_hush h env _ ha]
      simp only [note_one _ (h.part _ _), quiet_bind]
      refine bind_congr fun _ => bind_congr fun _ => bind_congr fun _ => bind_congr fun _ => bind_congr fun _ => bind_congr fun vs => ?_
      match vs with
      | [] => rfl
      | [s] => simp only [quiet_bind, quiet_pure]
      | _ :: _ :: _ => rfl
    · rename_i hne
      have hl' : hushP qv qf l = true := by
        split at hl
        · rfl
        · exact hl
      rw [placeL_hush h env _ hl', evalListL_hush h env _ ha, h.width]
      split
      · exact (hne _ _ rfl rfl).elim
      simp only [quiet_bind, quiet_pure]
  | .panic, env, _ => by
    rw [execL, exec]
  | .ifElse b t e, env, hs => by
    simp only [hushS, Bool.and_eq_true] at hs
    rw [execL, exec, evalL_hush h env none b hs.1.1]
    simp only [quiet_bind]
    refine bind_congr fun v => ?_
    match v with
    | .bool true =>
      simp only [note_one _ (h.branch _)]
      exact execScopeL_hush h _ t env hs.1.2
    | .bool false =>
      simp only [note_one _ (h.branch _)]
      exact execScopeL_hush h _ e env hs.2
    | .lit _ | .u8 _ | .u32 _ | .u64 _ | .i64 _ | .usize _ | .bytes _ | .words32 _ | .words64 _ | .pair _ _ | .struct _ => rfl
  | .forIn x lo hi incl body, env, hs => by
    simp only [hushS, Bool.and_eq_true] at hs
    rw [execL, exec, evalL_hush h env none lo hs.1.1, evalL_hush h env none hi hs.1.2]
    simp only [quiet_bind, note_one _ (h.range _), quiet_pure]
    refine bind_congr fun lo => bind_congr fun hi => bind_congr fun a => bind_congr fun b => ?_
    rw [← quiet_forLoop]
    congr 1
    congr 1
    funext k env
    rw [quiet_bind, execScopeL_hush h _ body _ hs.2]
    refine bind_congr fun r => ?_
    cases r <;> rfl
  | .loop body, env, hs => by
    rw [hushS] at hs
    cases hs
  | .break, env, _ => by
    rw [execL, exec, quiet_pure]

theorem execBlockL_hush (h : Hush c c' qv qf) : (ss : List Stmt) → (env : Env) → hushSs qv qf ss = true → execBlockL c ss env = quiet (execBlock c' ss env)
  | [], env, _ => by
    rw [execBlockL, execBlock, quiet_pure]
  | s :: ss, env, hs => by
    simp only [hushSs, Bool.and_eq_true] at hs
    rw [execBlockL, execBlock, execL_hush h s env hs.1, quiet_bind]
    refine bind_congr fun r => ?_
    match r with
    | .next env => exact execBlockL_hush h ss env hs.2
    | .brk env => rfl

theorem execScopeL_hush (h : Hush c c' qv qf) (n : Nat) : (ss : List Stmt) → (env : Env) → hushSs qv qf ss = true →
    execScopeL c n ss env = quiet (execScope c' n ss env)
  | ss, env, hs => by
    rw [execScopeL, execScope, execBlockL_hush h ss env hs, quiet_bind]
    refine bind_congr fun r => ?_
    cases r <;> rfl
end

/-- Nothing is seen of the function. -/
def hushFn (qv : String → Bool → Bool) (qf : String → Bool) (f : Fn) : Bool := hushSs qv qf f.body && hushE qv qf f.result

theorem runFnL_hush (h : Hush c c' qv qf) (f : Fn) (args : List Val) (hf : hushFn qv qf f = true) : runFnL c f args = quiet (runFn c' f args) := by
  simp only [hushFn, Bool.and_eq_true] at hf
  unfold runFnL runFn
  rw [quiet_bind]
  refine bind_congr fun env => ?_
  rw [execBlockL_hush h _ env hf.1, quiet_bind]
  refine bind_congr fun r => ?_
  match r with
  | .next env => exact evalL_hush h env _ _ hf.2
  | .brk env => rfl

/-- What an observer must not see. -/
structure Deaf (obs : Access → List ε) (qv : String → Bool → Bool) (qf : String → Bool) : Prop where
  read : ∀ x b k, qv x b = true → obs (.read x b k) = []
  write : ∀ x b k, qv x b = true → obs (.write x b k) = []
  split : ∀ x k n, qv x true = true → obs (.split x k n) = []
  part : ∀ a b, obs (.part a b) = []
  alloc : ∀ n, obs (.alloc n) = []
  divide : ∀ x y, obs (.divide x y) = []
  shift : ∀ n, obs (.shift n) = []
  branch : ∀ b, obs (.branch b) = []
  range : ∀ n, obs (.range n) = []
  called : ∀ f, qf f = true → obs (.call f) = []

/-- If nothing is seen of the functions in `qf` as long as nothing is seen of those that they call, then nothing is seen of their calls. -/
theorem callL_hush {obs : Access → List ε} (hd : Deaf obs qv qf) (fns : List Fn) (ext : String → Option (List U8 → List U8)) (u : Nat) (p : Profile)
    (hf : fns.all (fun f => !qf f.name || hushFn qv qf f) = true) (depth : Nat) (name : String) (args : List Val) (hq : qf name = true) :
    callL obs fns ext u p depth name args = quiet (call fns ext u p depth name args) := by
  induction depth generalizing name args with
  | zero => rfl
  | succ d ih =>
    unfold callL call
    generalize ho : fns.find? (·.name = name) = o
    match o with
    | none => rfl
    | some f =>
      have h1 := List.find?_some ho
      have h2 := List.mem_of_find?_eq_some ho
      have h3 := List.all_eq_true.mp hf f h2
      simp only [decide_eq_true_eq] at h1
      rw [h1, hq] at h3
      simp only [Bool.not_true, Bool.false_or] at h3
      exact runFnL_hush (c := ⟨u, p, obs, callL obs fns ext u p d⟩) (c' := ⟨u, p, call fns ext u p d⟩)
        ⟨rfl, rfl, hd.read, hd.write, hd.split, hd.part, hd.alloc, hd.divide, hd.shift, hd.branch, hd.range, hd.called, fun f vs hf => ih f vs hf⟩ f args h3

end Source

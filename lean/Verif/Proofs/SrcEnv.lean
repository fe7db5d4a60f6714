import Verif.Proofs.SrcBase

/-! Variables, loops and repeated statements in the interpreter of `Source.Semantics`. -/

namespace Source
open Rust

/-! ## Variables -/

/-- The variable `x` has the value `v`. -/
def Has (env : Env) (x : String) (v : Val) : Prop := Env.get x env = pure v

/-- The environment with the variable `x` changed. -/
def Env.upd (x : String) (v : Val) : Env → Env
  | [] => []
  | (y, w) :: env => if x = y then (y, v) :: env else (y, w) :: upd x v env

theorem Env.length_upd (x : String) (v : Val) (env : Env) : (env.upd x v).length = env.length := by
  induction env with
  | nil => rfl
  | cons a env ih =>
    obtain ⟨y, w⟩ := a
    unfold Env.upd
    split
    · rfl
    · simp [ih]

theorem Has.set {env : Env} {x : String} {v : Val} (h : Has env x v) (v' : Val) : env.set x v' = pure (env.upd x v') := by
  induction env with
  | nil => exact (Res.pure_ne_throw (Eq.symm h)).elim
  | cons a env ih =>
    obtain ⟨y, w⟩ := a
    unfold Has at h
    rw [get_cons] at h
    unfold Env.upd
    rw [set_cons]
    by_cases hxy : x = y
    · rw [if_pos hxy, if_pos hxy]
    · rw [if_neg hxy] at h
      rw [if_neg hxy, if_neg hxy, ih h, pure_bind]

theorem Has.upd_self {env : Env} {x : String} {v : Val} (h : Has env x v) (v' : Val) : Has (env.upd x v') x v' := by
  induction env with
  | nil => exact (Res.pure_ne_throw (Eq.symm h)).elim
  | cons a env ih =>
    obtain ⟨y, w⟩ := a
    unfold Has at h ⊢
    rw [get_cons] at h
    unfold Env.upd
    by_cases hxy : x = y
    · rw [if_pos hxy, get_cons, if_pos hxy]
    · rw [if_neg hxy] at h
      rw [if_neg hxy, get_cons, if_neg hxy]
      exact ih h

theorem get_upd_ne {env : Env} {x y : String} (h : x ≠ y) (v : Val) : Env.get x (env.upd y v) = Env.get x env := by
  induction env with
  | nil => rfl
  | cons a env ih =>
    obtain ⟨z, w⟩ := a
    unfold Env.upd
    by_cases hyz : y = z
    · rw [if_pos hyz, get_cons, get_cons, if_neg (by rw [← hyz]; exact h), if_neg (by rw [← hyz]; exact h)]
    · rw [if_neg hyz, get_cons, get_cons, ih]

theorem Has.upd_ne {env : Env} {x y : String} {v : Val} (h : Has env x v) (hxy : x ≠ y) (w : Val) : Has (env.upd y w) x v := by
  unfold Has
  rw [get_upd_ne hxy]
  exact h

theorem Env.upd_upd (x : String) (v w : Val) (env : Env) : (env.upd x v).upd x w = env.upd x w := by
  induction env with
  | nil => rfl
  | cons a env ih =>
    obtain ⟨y, u⟩ := a
    by_cases hxy : x = y
    · simp [Env.upd, hxy]
    · simp [Env.upd, hxy, ih]

theorem Env.upd_comm {x y : String} (h : x ≠ y) (v w : Val) (env : Env) :
    (env.upd x v).upd y w = (env.upd y w).upd x v := by
  induction env with
  | nil => rfl
  | cons a env ih =>
    obtain ⟨z, u⟩ := a
    by_cases hx : x = z
    · subst hx
      simp [Env.upd, h.symm]
    · by_cases hy : y = z
      · subst hy
        simp [Env.upd, h]
      · simp [Env.upd, hx, hy, ih]

theorem Env.upd_same {env : Env} {x : String} {v : Val} (h : Has env x v) : env.upd x v = env := by
  induction env with
  | nil => rfl
  | cons a env ih =>
    obtain ⟨y, w⟩ := a
    unfold Has at h
    rw [get_cons] at h
    unfold Env.upd
    by_cases hxy : x = y
    · rw [if_pos hxy] at h ⊢
      rw [Res.pure_inj h]
    · rw [if_neg hxy] at h ⊢
      rw [ih h]

theorem Env.upd_cons {x y : String} (h : x ≠ y) (v w : Val) (env : Env) :
    Env.upd x v ((y, w) :: env) = (y, w) :: env.upd x v := by
  simp [Env.upd, h]

theorem Has.cons {env : Env} {x y : String} {v : Val} (h : Has env x v) (hxy : x ≠ y) (w : Val) : Has ((y, w) :: env) x v := by
  unfold Has
  rw [get_cons, if_neg hxy]
  exact h

theorem Has.head (x : String) (v : Val) (env : Env) : Has ((x, v) :: env) x v := by
  unfold Has
  rw [get_cons, if_pos rfl]

theorem leave_cons (a : String × Val) {env : Env} {n : Nat} (h : env.length = n) : Env.leave n (a :: env) = env := by
  unfold Env.leave
  rw [List.length_cons, h, show n + 1 - n = 1 by omega]
  rfl

theorem leave_append (pre : Env) {env : Env} {n : Nat} (h : env.length = n) : Env.leave n (pre ++ env) = env := by
  unfold Env.leave
  rw [List.length_append, h, Nat.add_sub_cancel]
  exact List.drop_left

theorem leave_self {env : Env} {n : Nat} (h : env.length = n) : Env.leave n env = env := by
  unfold Env.leave
  rw [h, Nat.sub_self]
  rfl

/-! ## Statements on a known environment -/

variable {c : Ctx}

theorem eval_var {env : Env} {x : String} {v : Val} (h : Has env x v) : eval c env none (.var x) = pure v := by
  rw [eval, h, pure_bind]
  rfl

theorem writePlace_var {env : Env} {x : String} {old new : Val} (h : Has env x old) :
    writePlace env (x, []) new = (likeOld old new >>= fun v => pure (env.upd x v)) := by
  unfold writePlace
  rw [h, pure_bind]
  unfold writeSteps
  congr 1
  funext v
  exact h.set v

theorem writePlace_index {env : Env} {x : String} {old : Val} {i : Nat} {new : Val} (h : Has env x old) :
    writePlace env (x, [.index i]) new = (setItem old i new >>= fun v => pure (env.upd x v)) := by
  unfold writePlace
  rw [h, pure_bind]
  simp only [writeSteps, List.isEmpty_nil, ↓reduceIte]
  congr 1
  funext v
  exact h.set v

theorem readPlace_var {env : Env} {x : String} {old : Val} (h : Has env x old) : readPlace env (x, []) = pure old := by
  unfold readPlace
  rw [h, pure_bind]
  rfl

theorem readPlace_index {env : Env} {x : String} {old : Val} {i : Nat} (h : Has env x old) :
    readPlace env (x, [.index i]) = item old i := by
  unfold readPlace
  rw [h, pure_bind]
  simp only [readSteps, bind_pure]

/-- Statements one after the other. -/
theorem execBlock_cons (s : Stmt) (ss : List Stmt) (env : Env) :
    execBlock c (s :: ss) env = (exec c s env >>= fun r => match r with
      | .next env => execBlock c ss env
      | .brk env => pure (.brk env)) := by
  rw [execBlock]
  congr 1

/-- A statement that ends normally. -/
theorem execBlock_next {σ : Type} {s : Stmt} {ss : List Stmt} {env : Env} {m : Res σ} {f : σ → Env}
    (h : exec c s env = (m >>= fun a => pure (.next (f a)))) : execBlock c (s :: ss) env = (m >>= fun a => execBlock c ss (f a)) := by
  rw [execBlock_cons, h, bind_assoc]
  simp only [pure_bind]

theorem execBlock_next_pure {s : Stmt} {ss : List Stmt} {env env' : Env}
    (h : exec c s env = pure (.next env')) : execBlock c (s :: ss) env = execBlock c ss env' := by
  rw [execBlock_cons, h, pure_bind]

/-- A statement repeated for several words. -/
theorem execBlock_map {ι σ : Type} (ws : List ι) (S : ι → Stmt) (step : ι → σ → Res σ) (f : σ → Env)
    (h : ∀ w s, exec c (S w) (f s) = (step w s >>= fun s' => pure (.next (f s')))) (rest : List Stmt) (s : σ) :
    execBlock c (ws.map S ++ rest) (f s) = (ws.foldlM (fun s w => step w s) s >>= fun s' => execBlock c rest (f s')) := by
  induction ws generalizing s with
  | nil => rw [List.map_nil, List.nil_append, List.foldlM_nil, pure_bind]
  | cons w ws ih =>
    rw [List.map_cons, List.cons_append, execBlock_next (h w s), List.foldlM_cons, bind_assoc]
    congr 1
    funext s'
    exact ih s'

/-- Twelve statements that differ in the number of the word. -/
theorem execBlock_unroll {σ : Type} (S : Fin 12 → Stmt) (step : Fin 12 → σ → Res σ) (f : σ → Env)
    (h : ∀ w s, exec c (S w) (f s) = (step w s >>= fun s' => pure (.next (f s')))) (rest : List Stmt) (s : σ) :
    execBlock c ((List.finRange 12).map S ++ rest) (f s) = (unroll12 step s >>= fun s' => execBlock c rest (f s')) :=
  execBlock_map _ S step f h rest s

/-- A `for` loop whose body acts on an image of the state. -/
theorem forLoop_map {σ τ : Type} (f : σ → τ) (i n : Nat) (body : Nat → σ → Res σ) (body' : Nat → τ → Res τ)
    (h : ∀ k s, i ≤ k → k < i + n → body' k (f s) = (body k s >>= fun s' => pure (f s'))) (s : σ) :
    forLoop i n body' (f s) = (forLoop i n body s >>= fun s' => pure (f s')) := by
  induction n generalizing i s with
  | zero => simp [forLoop]
  | succ n ih =>
    unfold forLoop
    rw [h i s (Nat.le_refl _) (by omega), bind_assoc, bind_assoc]
    congr 1
    funext s'
    rw [pure_bind]
    exact ih (i + 1) (fun k s hk hk' => h k s (by omega) (by omega)) s'

/-- What follows only matters for the values that are returned. -/
theorem bind_congr_pure {α β : Type} {m : Res α} {f g : α → Res β} (h : ∀ a, m = pure a → f a = g a) : (m >>= f) = (m >>= g) := by
  match m, h with
  | none, _ => rfl
  | some (.error _), _ => rfl
  | some (.ok a), h => exact h a rfl

/-- A `for` loop whose body acts on an image of the state, under an invariant. -/
theorem forLoop_map_inv {σ τ : Type} (f : σ → τ) (P : Nat → σ → Prop) (i n : Nat) (body : Nat → σ → Res σ) (body' : Nat → τ → Res τ)
    (h : ∀ k s, P k s → i ≤ k → k < i + n → body' k (f s) = (body k s >>= fun s' => pure (f s')))
    (hP : ∀ k s s', P k s → i ≤ k → k < i + n → body k s = pure s' → P (k + 1) s') (s : σ) (h0 : P i s) :
    forLoop i n body' (f s) = (forLoop i n body s >>= fun s' => pure (f s')) := by
  induction n generalizing i s with
  | zero => simp [forLoop]
  | succ n ih =>
    unfold forLoop
    rw [h i s h0 (Nat.le_refl _) (by omega), bind_assoc, bind_assoc]
    refine bind_congr_pure fun s' hs' => ?_
    rw [pure_bind]
    exact ih (i + 1) (fun k s hP hk hk' => h k s hP (by omega) (by omega)) (fun k s s' h1 hk hk' => hP k s s' h1 (by omega) (by omega)) s'
      (hP i s s' h0 (Nat.le_refl _) (by omega) hs')

/-- A `for` loop from another start. -/
theorem forLoop_shift {σ : Type} (i j n : Nat) (body : Nat → σ → Res σ) (s : σ) :
    forLoop (i + j) n body s = forLoop i n (fun k s => body (k + j) s) s := by
  induction n generalizing i s with
  | zero => rfl
  | succ n ih =>
    unfold forLoop
    congr 1
    funext s'
    rw [← ih (i + 1) s', show i + 1 + j = i + j + 1 by omega]

/-- The body of a `for` loop as the interpreter runs it. -/
def forBody (c : Ctx) (x : String) (v : Nat → Val) (body : List Stmt) (k : Nat) (env : Env) : Res Env := do
  match (← execScope c env.length body ((x, v k) :: env)) with
  | .next env => pure env
  | .brk _ => stuck

/-- `for x in 0..hi` over `u64`. -/
theorem exec_for_u64 {env : Env} {hi : String} {n : U64} (x : String) (body : List Stmt) (h : Has env hi (.u64 n)) :
    exec c (.forIn x (.lit 0) (.var hi) false body) env =
      (forLoop 0 n.toNat (forBody c x (fun k => .u64 (BitVec.ofNat 64 k)) body) env >>= fun env => pure (.next env)) := by
  rw [exec, eval, eval_var h, asTy]
  · simp only [pure_bind, num_lit 0 (by decide), num_u64]
    have e1 : ((n.toNat : Int) - ((0 : Nat) : Int) + (if false = true then 1 else 0)).toNat = n.toNat := by simp
    rw [e1]
    have e2 : ∀ k : Nat, rangeVal (.lit ((0 : Nat) : Int)) (.u64 n) (((0 : Nat) : Int) + k) = .u64 (BitVec.ofNat 64 k) := by
      intro k
      simp [rangeVal]
    simp only [e2]
    rfl
  · simp

/-- One round of a `for` loop whose body ends normally. -/
theorem forBody_next {σ : Type} {x : String} {v : Nat → Val} {body : List Stmt} {k : Nat} {env : Env} {m : Res σ} {f : σ → Env}
    (hlen : ∀ s, (f s).length = env.length)
    (h : execBlock c body ((x, v k) :: env) = (m >>= fun s => pure (.next ((x, v k) :: f s)))) :
    forBody c x v body k env = (m >>= fun s => pure (f s)) := by
  unfold forBody
  rw [execScope, h]
  simp only [bind_assoc, pure_bind]
  congr 1
  funext s
  rw [leave_cons _ (hlen s)]

/-- One round of a `for` loop whose body declares further variables. -/
theorem forBody_scope {σ : Type} {x : String} {v : Nat → Val} {body : List Stmt} {k : Nat} {env : Env} {m : Res σ} {f : σ → Env}
    (pre : σ → Env) (hlen : ∀ s, (f s).length = env.length)
    (h : execBlock c body ((x, v k) :: env) = (m >>= fun s => pure (.next (pre s ++ f s)))) :
    forBody c x v body k env = (m >>= fun s => pure (f s)) := by
  unfold forBody
  rw [execScope, h]
  simp only [bind_assoc, pure_bind]
  congr 1
  funext s
  rw [leave_append _ (hlen s)]

end Source

import Verif.Source.Calls
import Verif.Source.Log

/-! A run of a function depends on the functions named in its text only. -/

namespace Source
open Rust
open Model.Log (LoggedOf quiet)

variable {ε : Type} {u : Nat} {p : Profile} {obs : Access → List ε} {f g : String → List Val → LoggedOf ε Val}

/-- `f` and `g` agree on the names listed. -/
def SameOn (names : List String) (f g : String → List Val → LoggedOf ε Val) : Prop := ∀ x ∈ names, ∀ vs, f x vs = g x vs

theorem SameOn.left {a b : List String} (h : SameOn (a ++ b) f g) : SameOn a f g := fun x hx => h x (List.mem_append_left _ hx)

theorem SameOn.right {a b : List String} (h : SameOn (a ++ b) f g) : SameOn b f g := fun x hx => h x (List.mem_append_right _ hx)

mutual
theorem evalL_same (env : Env) (want : Option Ty) : (e : Expr) → SameOn (callsE e) f g →
    evalL ⟨u, p, obs, f⟩ env want e = evalL ⟨u, p, obs, g⟩ env want e
  | .lit n, _ => by simp only [evalL]
  | .var x, _ => by simp only [evalL]
  | .const x, h => by
    simp only [evalL]
    exact h x (by simp [callsE]) []
  | .neg e, h => by
    rw [callsE] at h
    simp only [evalL, evalL_same env none e h]
  | .bin op a b, h => by
    rw [callsE] at h
    simp only [evalL, evalL_same env none a h.left, evalL_same env none b h.right]
    rfl
  | .cast e t, h => by
    rw [callsE] at h
    simp only [evalL, evalL_same env none e h]
  | .index e i, h => by
    rw [callsE] at h
    simp only [evalL, evalL_same env none e h.left, evalL_same env none i h.right]
    rfl
  | .slice e lo hi, h => by
    rw [callsE] at h
    simp only [evalL, evalL_same env none e h.left.left, evalL_same env none lo h.left.right, evalL_same env none hi h.right]
    rfl
  | .prefix e hi, h => by
    rw [callsE] at h
    simp only [evalL, evalL_same env none e h.left, evalL_same env none hi h.right]
    rfl
  | .field e x, h => by
    rw [callsE] at h
    simp only [evalL, evalL_same env none e h]
  | .call x args, h => by
    rw [callsE] at h
    simp only [evalL, evalListL_same env args h.right]
    congr 1
    funext vs
    split
    · rfl
    · rename_i hx
      rw [h.left x (by rw [if_neg hx]; simp) vs]
      rfl
  | .method e m args, h => by
    rw [callsE] at h
    simp only [evalL, evalL_same env none e h.left, evalListL_same env args h.right]
    rfl
  | .vecOf x n, h => by
    rw [callsE] at h
    simp only [evalL, evalL_same env none x h.left, evalL_same env none n h.right]
    rfl
  | .arrayOf x n, h => by
    rw [callsE] at h
    simp only [evalL, evalL_same env none x h]
  | .list es, h => by
    rw [callsE] at h
    simp only [evalL, evalListL_same env es h]
  | .struct fields es, h => by
    rw [callsE] at h
    simp only [evalL, evalFieldsL_same env fields es h]

theorem evalListL_same (env : Env) : (es : List Expr) → SameOn (callsL es) f g →
    evalListL ⟨u, p, obs, f⟩ env es = evalListL ⟨u, p, obs, g⟩ env es
  | [], _ => by simp only [evalListL]
  | e :: es, h => by
    rw [callsL] at h
    simp only [evalListL, evalL_same env none e h.left, evalListL_same env es h.right]

theorem evalFieldsL_same (env : Env) (fields : List (String × Ty)) : (es : List Expr) → SameOn (callsL es) f g →
    evalFieldsL ⟨u, p, obs, f⟩ env fields es = evalFieldsL ⟨u, p, obs, g⟩ env fields es
  | [], _ => by simp only [evalFieldsL]
  | e :: es, h => by
    rw [callsL] at h
    match fields with
    | [] => simp only [evalFieldsL]
    | (x, t) :: fields => simp only [evalFieldsL, evalL_same env (some t) e h.left, evalFieldsL_same env fields es h.right]
end

theorem placeL_same (env : Env) : (e : Expr) → SameOn (callsE e) f g → placeL ⟨u, p, obs, f⟩ env e = placeL ⟨u, p, obs, g⟩ env e
  | .var x, _ => by simp only [placeL]
  | .index e i, h => by
    rw [callsE] at h
    simp only [placeL, placeL_same env e h.left, evalL_same env none i h.right]
  | .field e x, h => by
    rw [callsE] at h
    simp only [placeL, placeL_same env e h]
  | .lit n, _ => rfl
  | .const x, _ => rfl
  | .neg e, _ => rfl
  | .bin op a b, _ => rfl
  | .cast e t, _ => rfl
  | .slice e lo hi, _ => rfl
  | .prefix e hi, _ => rfl
  | .call x args, _ => rfl
  | .method e m args, _ => rfl
  | .vecOf x n, _ => rfl
  | .arrayOf x n, _ => rfl
  | .list es, _ => rfl
  | .struct fields es, _ => rfl

mutual
theorem execL_same : (s : Stmt) → (env : Env) → SameOn (callsS s) f g → execL ⟨u, p, obs, f⟩ s env = execL ⟨u, p, obs, g⟩ s env
  | .letVar x t e, env, h => by
    rw [callsS] at h
    simp only [execL, evalL_same env t e h]
  | .letSnd x e, env, h => by
    rw [callsS] at h
    simp only [execL, evalL_same env none e h]
  | .assign l e, env, h => by
    rw [callsS] at h
    simp only [execL, evalL_same env none e h.right, placeL_same env l h.left]
    rfl
  | .assignOp op l e, env, h => by
    rw [callsS] at h
    simp only [execL, evalL_same env none e h.right, placeL_same env l h.left]
    rfl
  | .mutate l m args, env, h => by
    rw [callsS] at h
    rw [execL.eq_def, execL.eq_def]
    dsimp only
    split
    · rename_i l hi
      have h1 := h.left
      rw [callsE] at h1
      simp only [placeL_same env l h1.left, evalL_same env none hi h1.right, evalListL_same env args h.right]
      rfl
    · simp only [placeL_same env l h.left, evalListL_same env args h.right]
  | .panic, env, _ => by simp only [execL]
  | .ifElse b t e, env, h => by
    rw [callsS] at h
    simp only [execL, evalL_same env none b h.left.left, execScopeL_same _ t env h.left.right, execScopeL_same _ e env h.right]
    rfl
  | .forIn x lo hi incl body, env, h => by
    rw [callsS] at h
    simp only [execL, evalL_same env none lo h.left.left, evalL_same env none hi h.left.right, execScopeL_same _ body _ h.right]
    rfl
  | .loop body, env, h => by
    rw [callsS] at h
    simp only [execL, execScopeL_same _ body _ h]
  | .break, env, _ => by simp only [execL]

theorem execBlockL_same : (ss : List Stmt) → (env : Env) → SameOn (callsB ss) f g →
    execBlockL ⟨u, p, obs, f⟩ ss env = execBlockL ⟨u, p, obs, g⟩ ss env
  | [], env, _ => by simp only [execBlockL]
  | s :: ss, env, h => by
    rw [callsB] at h
    simp only [execBlockL, execL_same s env h.left, execBlockL_same ss _ h.right]

theorem execScopeL_same (n : Nat) : (ss : List Stmt) → (env : Env) → SameOn (callsB ss) f g →
    execScopeL ⟨u, p, obs, f⟩ n ss env = execScopeL ⟨u, p, obs, g⟩ n ss env
  | ss, env, h => by
    simp only [execScopeL, execBlockL_same ss env h]
end

theorem runFnL_same (fn : Fn) (args : List Val) (h : SameOn fn.calls f g) : runFnL ⟨u, p, obs, f⟩ fn args = runFnL ⟨u, p, obs, g⟩ fn args := by
  unfold runFnL
  simp only [execBlockL_same fn.body _ h.left, evalL_same _ _ fn.result h.right]

/-- A program in which the names have ranks, and a function names only those of smaller rank: the outcome does not depend on the depth to
which calls are followed, once it exceeds the rank. -/
theorem callL_depth (obs : Access → List ε) (fns : List Fn) (ext : String → Option (List U8 → List U8)) (u : Nat) (p : Profile)
    (rank : String → Nat) (hr : ∀ f ∈ fns, ∀ x ∈ f.calls, rank x < rank f.name) (d d' : Nat) (name : String) (args : List Val)
    (h : rank name < d) (h' : rank name < d') : callL obs fns ext u p d name args = callL obs fns ext u p d' name args := by
  induction d generalizing d' name args with
  | zero => omega
  | succ d ih =>
    match d' with
    | 0 => omega
    | d' + 1 =>
      unfold callL
      cases hf : fns.find? (·.name = name) with
      | none => rfl
      | some fn =>
        have h1 := List.mem_of_find?_eq_some hf
        have h2 : fn.name = name := by simpa using List.find?_some hf
        refine runFnL_same fn args fun x hx vs => ?_
        have := hr fn h1 x hx
        rw [h2] at this
        exact ih d' x vs (by omega) (by omega)

end Source

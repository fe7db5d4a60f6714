import Verif.Model.Log
import Verif.Proofs.LoopIter
import Verif.Proofs.Lyra2modEq
import Verif.Proofs.Lyra2Main

/-! The log does not change the outcome: without it, `Model/Log.lean` is `Model/Lyra2.lean` and `Model/Lyra2mod.lean`. -/

namespace Proofs.Log
open Rust Rust.Res Model.Log
open Model.Lyra2 (State Matrix SetupVars WanderVars blake2b_lyra reduced_blake2b_lyra)

variable {ε α β σ : Type}

/-- Whatever the log, `l` has the outcome of `m`. -/
def Erases (l : LoggedOf ε α) (m : Res α) : Prop := ∀ log, (l log >>= fun x => pure x.1) = m

theorem Erases.quiet (m : Res α) : Erases (Model.Log.quiet (ε := ε) m) m := by
  intro log
  unfold Model.Log.quiet
  rw [bind_assoc]
  simp

theorem Erases.pure (a : α) : Erases (pure a : LoggedOf ε α) (Pure.pure a) := fun _ => rfl

theorem Erases.bind {l : LoggedOf ε α} {m : Res α} {f : α → LoggedOf ε β} {g : α → Res β} (h : Erases l m) (hf : ∀ a, Erases (f a) (g a)) :
    Erases (l >>= f) (m >>= g) := by
  intro log
  show ((l log >>= fun x => f x.1 x.2) >>= fun x => Pure.pure x.1) = _
  rw [bind_assoc, ← h log, bind_assoc]
  congr 1
  funext x
  rw [pure_bind]
  exact hf x.1 x.2

theorem Erases.emit {e : Event} {f : Unit → Logged β} {g : Res β} (h : Erases (f ()) g) : Erases (Model.Log.emit e >>= f) g := by
  intro log
  exact h (log ++ [e])

theorem Erases.get (m : Matrix) (i : Nat) : Erases (Model.Log.get m i) (vget m i) := .emit (.quiet _)

theorem Erases.put (m : Matrix) (i : Nat) (x : U64) : Erases (Model.Log.put m i x) (vset m i x) := .emit (.quiet _)

theorem Erases.tail (m : Matrix) (i : Nat) : Erases (Model.Log.tail m i) (splitRight m i) := by
  unfold Model.Log.tail
  have := Erases.bind (Erases.quiet (splitRight m i)) (f := fun t => Model.Log.emit (.copy i t.size) >>= fun _ => Pure.pure t) (g := Pure.pure)
    fun t => .emit (.pure t)
  rw [bind_pure] at this
  exact this

theorem Erases.round {s : State} {f : State → Logged β} {g : Res β} (h : Erases (f (reduced_blake2b_lyra s)) g) :
    Erases (Model.Log.round s >>= f) g := by
  intro log
  exact h (log ++ [.round])

theorem Erases.permute {s : State} {f : State → Logged β} {g : Res β} (h : Erases (f (blake2b_lyra s)) g) :
    Erases (Model.Log.permute s >>= f) g := by
  intro log
  exact h (log ++ [.permute])

theorem Erases.permute' (s : State) : Erases (Model.Log.permute s) (Pure.pure (blake2b_lyra s)) := fun _ => rfl

theorem Erases.forLoop {body : Nat → σ → LoggedOf ε σ} {body' : Nat → σ → Res σ} (h : ∀ j s, Erases (body j s) (body' j s))
    (i n : Nat) (s : σ) : Erases (Model.Log.forLoop i n body s) (Rust.forLoop i n body' s) := by
  intro log
  unfold Model.Log.forLoop
  induction n generalizing i s log with
  | zero => rfl
  | succ n ih =>
    unfold Rust.forLoop
    rw [bind_assoc, ← h i s log, bind_assoc]
    congr 1
    funext x
    rw [pure_bind]
    exact ih (i + 1) x.1 x.2

theorem Erases.unroll12 {stmt : Fin 12 → σ → LoggedOf ε σ} {stmt' : Fin 12 → σ → Res σ} (h : ∀ w s, Erases (stmt w s) (stmt' w s)) (s : σ) :
    Erases (Model.Log.unroll12 stmt s) (Rust.unroll12 stmt' s) := by
  intro log
  unfold Model.Log.unroll12 Rust.unroll12
  generalize List.finRange 12 = l
  induction l generalizing s log with
  | nil => rfl
  | cons w l ih =>
    rw [List.foldlM_cons, List.foldlM_cons, bind_assoc, ← h w s log, bind_assoc]
    congr 1
    funext x
    rw [pure_bind]
    exact ih x.1 x.2

theorem Erases.loop {body : σ → LoggedOf ε (σ ⊕ β)} {body' : σ → Res (σ ⊕ β)} (h : ∀ s, Erases (body s) (body' s)) (s : σ) :
    Erases (Model.Log.loop body s) (Rust.loop body' s) := by
  intro log
  unfold Model.Log.loop
  refine loop_map (body := roundOf body) (body' := body') Prod.fst Prod.fst (fun x => ?_) (s, log)
  unfold roundOf
  rw [bind_assoc, ← h x.1 x.2]
  congr 1
  funext r
  match r with
  | (.inl s, l) => rfl
  | (.inr b, l) => rfl

theorem squeeze_erases (p : Profile) (s : State) (k : U64) : Erases (Model.Log.squeeze p s k) (Model.Lyra2.squeeze p s k) :=
  .bind (.quiet _) fun _ => .bind (.quiet _) fun _ => .bind (.forLoop (fun _ _ => .bind (.quiet _) fun _ => by exact .permute (.pure _)) _ _ _)
    fun _ => .pure _

theorem absorb_block_erases (s : State) (w : Array U64) : Erases (Model.Log.absorb_block s w) (Model.Lyra2.absorb_block s w) :=
  .bind (.quiet _) fun _ => .permute' _

theorem absorb_safe_erases (s : State) (w : Array U64) :
    Erases (Model.Log.absorb_block_blake2_safe s w) (Model.Lyra2.absorb_block_blake2_safe s w) :=
  .bind (.quiet _) fun _ => .permute' _

theorem writeWords_erases (b : List U8) (i : Nat) (m : Matrix) : Erases (Model.Log.writeWords b i m) (Model.Lyra2.writeWords b i m) :=
  .forLoop (fun _ _ => .bind (.quiet _) fun _ => .bind (.quiet _) fun _ => .put _ _ _) _ _ _

theorem writeInput_erases (p : Profile) (k : U64) (pwd salt : List U8) (T R C : U64) (n : I64) (m : Matrix) :
    Erases (Model.Log.writeInput p k pwd salt T R C n m) (Model.Lyra2.writeInput p k pwd salt T R C n m) :=
  .bind (writeWords_erases _ _ _) fun _ => .bind (writeWords_erases _ _ _) fun _ => .bind (.put _ _ _) fun _ => .bind (.put _ _ _) fun _ =>
    .bind (.put _ _ _) fun _ => .bind (.put _ _ _) fun _ => .bind (.put _ _ _) fun _ => .bind (.put _ _ _) fun _ => .bind (.put _ _ _) fun _ =>
    .bind (.quiet _) fun _ => .bind (.quiet _) fun _ => .bind (.get _ _) fun _ => .put _ _ _

theorem absorbInput_erases (n : I64) (m : Matrix) (s : State) : Erases (Model.Log.absorbInput n m s) (Model.Lyra2.absorbInput n m s) :=
  .bind (.forLoop (fun _ _ => .bind (.tail _ _) fun _ => .bind (absorb_safe_erases _ _) fun _ => .pure _) _ _ _) fun _ => .pure _

theorem squeezeRow0_erases (p : Profile) (C : U64) (s : State) (m : Matrix) :
    Erases (Model.Log.squeezeRow0 p C s m) (Model.Lyra2.squeezeRow0 p C s m) :=
  .bind (.quiet _) fun _ => .bind (.quiet _) fun _ => .bind (.forLoop (fun _ _ =>
    .bind (.unroll12 (fun _ _ => .bind (.quiet _) fun _ => .put _ _ _) _) fun _ => by exact .round (.pure _)) _ _ _) fun _ => .pure _

theorem duplexRow1_erases (p : Profile) (C : U64) (l : I64) (s : State) (m : Matrix) :
    Erases (Model.Log.duplexRow1 p C l s m) (Model.Lyra2.duplexRow1 p C l s m) :=
  .forLoop (fun _ _ => .bind (.unroll12 (fun _ _ => .bind (.quiet _) fun _ => .bind (.get _ _) fun _ => .pure _) _) fun _ =>
    .round (.bind (.unroll12 (fun _ _ => .bind (.quiet _) fun _ => .bind (.get _ _) fun _ => .bind (.quiet _) fun _ => .put _ _ _) _) fun _ =>
    .pure _)) _ _ _

theorem absorbSum_erases (p : Profile) (l : I64) (i : U64) (prev rowa : I64) (m : Matrix) (s : State) :
    Erases (Model.Log.absorbSum p l i prev rowa m s) (Model.Lyra2.absorbSum p l i prev rowa m s) :=
  .unroll12 (fun _ _ => .bind (.quiet _) fun _ => .bind (.get _ _) fun _ => .bind (.quiet _) fun _ => .bind (.get _ _) fun _ => .pure _) _

theorem xorRotW_erases (p : Profile) (l : I64) (i : U64) (rowa : I64) (s : State) (m : Matrix) :
    Erases (Model.Log.xorRotW p l i rowa s m) (Model.Lyra2.xorRotW p l i rowa s m) :=
  .unroll12 (fun _ _ => .bind (.quiet _) fun _ => .bind (.get _ _) fun _ => .put _ _ _) _

theorem duplexRowSetup_erases (p : Profile) (C : U64) (l prev rowa row : I64) (s : State) (m : Matrix) :
    Erases (Model.Log.duplexRowSetup p C l prev rowa row s m) (Model.Lyra2.duplexRowSetup p C l prev rowa row s m) :=
  .forLoop (fun _ _ => .bind (absorbSum_erases _ _ _ _ _ _ _) fun _ => .round (.bind (.unroll12 (fun _ _ => .bind (.quiet _) fun _ =>
    .bind (.get _ _) fun _ => .bind (.quiet _) fun _ => .put _ _ _) _) fun _ => .bind (xorRotW_erases _ _ _ _ _ _) fun _ => .pure _)) _ _ _

theorem duplexRow_erases (p : Profile) (C : U64) (l prev rowa row : I64) (s : State) (m : Matrix) :
    Erases (Model.Log.duplexRow p C l prev rowa row s m) (Model.Lyra2.duplexRow p C l prev rowa row s m) :=
  .forLoop (fun _ _ => .bind (absorbSum_erases _ _ _ _ _ _ _) fun _ => .round (.bind (.unroll12 (fun _ _ => .bind (.quiet _) fun _ =>
    .bind (.get _ _) fun _ => .put _ _ _) _) fun _ => .bind (xorRotW_erases _ _ _ _ _ _) fun _ => .pure _)) _ _ _

theorem setupRows_erases (p : Profile) (R C : U64) (l : I64) (s : State) (m : Matrix) :
    Erases (Model.Log.setupRows p R C l s m) (Model.Lyra2.setupRows p R C l s m) :=
  .forLoop (fun _ _ => .bind (duplexRowSetup_erases _ _ _ _ _ _ _ _) fun _ => .bind (.quiet _) fun _ => .pure _) _ _ _

theorem wanderBody_erases (p : Profile) (R C : U64) (l step : I64) (v : WanderVars) :
    Erases (Model.Log.wanderBody p R C l step v) (Model.Lyra2.wanderBody p R C l step v) := by
  refine .bind (.quiet _) fun _ => .bind (duplexRow_erases _ _ _ _ _ _ _ _) fun _ => .bind (.quiet _) fun _ => .bind (.quiet _) fun _ => ?_
  dsimp only
  split
  · exact .pure _
  · exact .pure _

theorem wander_erases (p : Profile) (T R C : U64) (l : I64) (v : WanderVars) :
    Erases (Model.Log.wander p T R C l v) (Model.Lyra2.wander p T R C l v) :=
  .forLoop (fun _ _ => .bind (.quiet _) fun _ => .loop (wanderBody_erases _ _ _ _ _) _) _ _ _

theorem wrapUp_erases (p : Profile) (k : U64) (l rowa : I64) (m : Matrix) (s : State) (x y : I64) :
    Erases (Model.Log.wrapUp p k l rowa m s) (Model.Lyra2.wrapUp p k l ⟨s, m, x, y, rowa⟩) :=
  .bind (.quiet _) fun _ => .bind (.tail _ _) fun _ => .bind (absorb_block_erases _ _) fun _ => squeeze_erases _ _ _

theorem Erases.throw {f : α → LoggedOf ε β} {g : α → Res β} (e : Panic) :
    Erases (Model.Log.quiet (throw e) >>= f) ((throw e : Res α) >>= g) := fun _ => rfl

theorem beforeWander_erases (p : Profile) (k : U64) (pwd salt : List U8) (T R C : U64) :
    Erases (Model.Log.beforeWander p k pwd salt T R C) (do
      if T.toNat < 1 then throw .explicit
      if R.toNat < 3 then throw .explicit
      Proofs.Lyra2.front p k pwd salt T R C) := by
  unfold Model.Log.beforeWander
  by_cases h1 : T.toNat < 1
  · rw [if_pos h1, if_pos h1]; exact .throw _
  rw [if_neg h1, if_neg h1]
  by_cases h2 : R.toNat < 3
  · rw [if_pos h2, if_pos h2]; exact .throw _
  rw [if_neg h2, if_neg h2]
  unfold Proofs.Lyra2.front
  exact .bind (.quiet _) fun _ => .bind (.quiet _) fun _ => .bind (writeInput_erases _ _ _ _ _ _ _ _ _) fun _ =>
    .bind (absorbInput_erases _ _ _) fun _ => .bind (squeezeRow0_erases _ _ _ _) fun _ => .bind (duplexRow1_erases _ _ _ _ _) fun _ =>
    .bind (setupRows_erases _ _ _ _ _ _) fun _ => .pure _

theorem lyra2_erases (p : Profile) (k : U64) (pwd salt : List U8) (T R C : U64) :
    Erases (Model.Log.lyra2 p k pwd salt T R C) (Model.Lyra2.lyra2 p k pwd salt T R C) := by
  have h : Model.Lyra2.lyra2 p k pwd salt T R C = ((do
      if T.toNat < 1 then throw .explicit
      if R.toNat < 3 then throw .explicit
      Proofs.Lyra2.front p k pwd salt T R C) >>= fun x => do
        let w ← Model.Lyra2.wander p T R C x.1
          { state := x.2.1, m := x.2.2.1, prev := x.2.2.2.prev, row := 0, rowa := x.2.2.2.rowa }
        Model.Lyra2.wrapUp p k x.1 w) := by
    rw [Proofs.Lyra2.lyra2_front]
    by_cases h1 : T.toNat < 1
    · rw [if_pos h1, if_pos h1]; rfl
    rw [if_neg h1, if_neg h1]
    by_cases h2 : R.toNat < 3
    · rw [if_pos h2, if_pos h2]; rfl
    rw [if_neg h2, if_neg h2]
  rw [h]
  exact .bind (beforeWander_erases _ _ _ _ _ _ _) fun _ => .bind (wander_erases _ _ _ _ _ _) fun _ => wrapUp_erases _ _ _ _ _ _ _ _

theorem modWanderBody_erases (p : Profile) (R C : U64) (l step : I64) (v : Model.Lyra2mod.WanderVars) :
    Erases (Model.Log.modWanderBody p R C l step v) (Model.Lyra2mod.wanderBody p R C l step v) := by
  unfold Model.Lyra2mod.wanderBody
  simp only [Proofs.Lyra2.mod_duplexRow]
  refine .emit (.bind (.quiet _) fun _ => .emit (.bind (.quiet _) fun _ => .bind (.quiet _) fun _ =>
    .bind (duplexRow_erases _ _ _ _ _ _ _ _) fun _ => .bind (.quiet _) fun _ => .bind (.quiet _) fun _ => ?_))
  dsimp only
  split
  · exact .pure _
  · exact .pure _

theorem modWander_erases (p : Profile) (T R C : U64) (l : I64) (v : Model.Lyra2mod.WanderVars) :
    Erases (Model.Log.modWander p T R C l v) (Model.Lyra2mod.wander p T R C l v) := by
  unfold Model.Lyra2mod.wander
  simp only [Proofs.Lyra2.mod_wanderStep]
  exact .forLoop (fun _ _ => .bind (.quiet _) fun _ => .loop (modWanderBody_erases _ _ _ _ _) _) _ _ _

theorem lyra2mod_erases (p : Profile) (k : U64) (pwd salt : List U8) (T R C : U64) :
    Erases (Model.Log.lyra2mod p k pwd salt T R C) (Model.Lyra2mod.lyra2mod p k pwd salt T R C) := by
  have h : Model.Lyra2mod.lyra2mod p k pwd salt T R C = ((do
      if T.toNat < 1 then throw .explicit
      if R.toNat < 3 then throw .explicit
      Proofs.Lyra2.front p k pwd salt T R C) >>= fun x => do
        let w ← Model.Lyra2mod.wander p T R C x.1
          { state := x.2.1, m := x.2.2.1, prev := x.2.2.2.prev, row := 0, rowa := x.2.2.2.rowa, index := 0 }
        Model.Lyra2mod.wrapUp p k x.1 w) := by
    rw [Proofs.Lyra2.lyra2mod_front]
    by_cases h1 : T.toNat < 1
    · rw [if_pos h1, if_pos h1]; rfl
    rw [if_neg h1, if_neg h1]
    by_cases h2 : R.toNat < 3
    · rw [if_pos h2, if_pos h2]; rfl
    rw [if_neg h2, if_neg h2]
  rw [h]
  simp only [Proofs.Lyra2.mod_wrapUp]
  exact .bind (beforeWander_erases _ _ _ _ _ _ _) fun _ => .bind (modWander_erases _ _ _ _ _ _) fun _ => wrapUp_erases _ _ _ _ _ _ _ _

end Proofs.Log

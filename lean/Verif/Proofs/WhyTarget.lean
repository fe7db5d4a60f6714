import Verif.Proofs.Why
import Verif.Model.Target

/-! Which reasons a panic of the model for targets with `u`-bit `usize` can have. -/

namespace Model.Target

open Rust
open Model.Lyra2 (State Matrix WanderVars why_absorb_block why_writeWords why_absorbInput why_next why_wanderStep)

variable (u : Nat) (p : Profile) {cap : Prop}

theorem why_usizeAdd (a b : Nat) : Why p cap (usizeAdd u p a b) := by
  unfold usizeAdd
  refine .ite (.pure _) fun e h => ?_
  cases p with
  | debug => cases h; exact .inr (.inl ⟨rfl, rfl⟩)
  | release => cases h
theorem why_vecOf {α : Type} (k : Nat) (x : α) (n : Nat) : Why p True (vecOf u k x n) := by
  refine .ite (.pure _) fun e h => ?_
  rw [Res.throw_eq, Res.throw_eq] at h
  cases h
  exact .inr (.inr ⟨rfl, trivial⟩)
theorem why_extend (v s : List U8) : Why p True (extend u v s) := by
  refine .ite (.pure _) fun e h => ?_
  rw [Res.throw_eq, Res.throw_eq] at h
  cases h
  exact .inr (.inr ⟨rfl, trivial⟩)

theorem why_squeeze (s : State) (n : U64) : Why p True (squeeze u p s n) := by
  unfold squeeze; why <;> first | with_reducible apply why_vecOf | with_reducible apply why_extend
theorem why_allocMatrix (r c : U64) : Why p True (allocMatrix u p r c) := by unfold allocMatrix; why; apply why_vecOf
theorem why_nBlocksInput (a b : Nat) : Why p cap (nBlocksInput u p a b) := by unfold nBlocksInput; why <;> apply why_usizeAdd
theorem why_writeInput (k : U64) (pwd salt : List U8) (t r c : U64) (n : I64) (m : Matrix) :
    Why p cap (writeInput u p k pwd salt t r c n m) := by
  have := fun b i m => why_writeWords p (cap := cap) b i m
  unfold writeInput
  why <;> apply this
theorem why_squeezeRow0 (c : U64) (s : State) (m : Matrix) : Why p cap (squeezeRow0 u p c s m) := by unfold squeezeRow0; why
theorem why_idxRow0 (i : U64) (w : Fin 12) : Why p cap (idxRow0 u p i w) := by unfold idxRow0; why
theorem why_idxRow1Rev (c : U64) (r : I64) (i : U64) (w : Fin 12) : Why p cap (idxRow1Rev u p c r i w) := by
  unfold idxRow1Rev; why
theorem why_idx (l : I64) (i : U64) (r : I64) (w : Fin 12) : Why p cap (idx u p l i r w) := by unfold idx; why
theorem why_idxRev (c : U64) (l : I64) (i : U64) (r : I64) (w : Fin 12) : Why p cap (idxRev u p c l i r w) := by
  unfold idxRev; why
theorem why_duplexRow1 (c : U64) (l : I64) (s : State) (m : Matrix) : Why p cap (duplexRow1 u p c l s m) := by
  unfold duplexRow1; why <;> first | with_reducible apply why_idxRow0 | with_reducible apply why_idxRow1Rev
theorem why_absorbSum (l : I64) (i : U64) (a b : I64) (m : Matrix) (s : State) : Why p cap (absorbSum u p l i a b m s) := by
  unfold absorbSum; why <;> apply why_idx
theorem why_xorRotW (l : I64) (i : U64) (a : I64) (s : State) (m : Matrix) : Why p cap (xorRotW u p l i a s m) := by
  unfold xorRotW; why; apply why_idx
theorem why_duplexRowSetup (c : U64) (l a b r : I64) (s : State) (m : Matrix) : Why p cap (duplexRowSetup u p c l a b r s m) := by
  unfold duplexRowSetup; why <;> first | with_reducible apply why_idx | with_reducible apply why_idxRev | with_reducible apply why_absorbSum | with_reducible apply why_xorRotW
theorem why_setupRows (r c : U64) (l : I64) (s : State) (m : Matrix) : Why p cap (setupRows u p r c l s m) := by
  unfold setupRows; why <;> first | with_reducible apply why_duplexRowSetup | with_reducible apply why_next
theorem why_duplexRow (c : U64) (l a b r : I64) (s : State) (m : Matrix) : Why p cap (duplexRow u p c l a b r s m) := by
  unfold duplexRow; why <;> first | with_reducible apply why_idx | with_reducible apply why_absorbSum | with_reducible apply why_xorRotW
theorem why_wanderBody (r c : U64) (l st : I64) (v : WanderVars) : Why p cap (wanderBody u p r c l st v) := by
  unfold wanderBody; why; apply why_duplexRow
theorem why_wander (t r c : U64) (l : I64) (v : WanderVars) : Why p cap (wander u p t r c l v) := by
  unfold wander; why <;> first | with_reducible apply why_wanderStep | with_reducible apply why_wanderBody
theorem why_wrapUp (k : U64) (l : I64) (v : WanderVars) : Why p True (wrapUp u p k l v) := by
  unfold wrapUp; why <;> first | with_reducible apply why_absorb_block | with_reducible apply why_squeeze
theorem why_lyra2 (k : U64) (pwd salt : List U8) (t r c : U64) (ht : 1 ≤ t.toNat) (hr : 3 ≤ r.toNat) :
    Why p True (lyra2 u p k pwd salt t r c) := by
  unfold lyra2
  rw [if_neg (by omega), if_neg (by omega)]
  why
  all_goals first
    | with_reducible apply why_allocMatrix
    | with_reducible apply why_nBlocksInput
    | with_reducible apply why_writeInput
    | with_reducible apply why_absorbInput
    | with_reducible apply why_squeezeRow0
    | with_reducible apply why_duplexRow1
    | with_reducible apply why_setupRows
    | with_reducible apply why_wander
    | with_reducible apply why_wrapUp

theorem why_modWanderBody (r c : U64) (l st : I64) (v : Model.Lyra2mod.WanderVars) : Why p cap (modWanderBody u p r c l st v) := by
  have := fun (i : Nat) => show Why p cap (aget v.state i) from Why.aget v.state i
  unfold modWanderBody
  why
  · apply this
  · apply this
  · apply why_duplexRow
theorem why_modWander (t r c : U64) (l : I64) (v : Model.Lyra2mod.WanderVars) : Why p cap (modWander u p t r c l v) := by
  unfold modWander
  why <;> first | with_reducible apply why_wanderStep | with_reducible apply why_modWanderBody
theorem why_lyra2mod (k : U64) (pwd salt : List U8) (t r c : U64) (ht : 1 ≤ t.toNat) (hr : 3 ≤ r.toNat) :
    Why p True (lyra2mod u p k pwd salt t r c) := by
  unfold lyra2mod
  rw [if_neg (by omega), if_neg (by omega)]
  why
  all_goals first
    | with_reducible apply why_allocMatrix
    | with_reducible apply why_nBlocksInput
    | with_reducible apply why_writeInput
    | with_reducible apply why_absorbInput
    | with_reducible apply why_squeezeRow0
    | with_reducible apply why_duplexRow1
    | with_reducible apply why_setupRows
    | with_reducible apply why_modWander
    | with_reducible apply why_wrapUp

open Model.Chains (Digests)

theorem why_sum (x : List U8) : Why p True (sum u p x) := why_lyra2 u p _ _ _ _ _ _ (by decide) (by decide)
theorem why_modSum (x : List U8) : Why p True (modSum u p x) := why_lyra2mod u p _ _ _ _ _ _ (by decide) (by decide)
theorem why_lyra2re (d : Digests) (x : List U8) : Why p True (lyra2re u p d x) := by
  unfold lyra2re
  why
  exact why_lyra2 u p _ _ _ _ _ _ (by decide) (by decide)
theorem why_lyra2rev2 (d : Digests) (x : List U8) : Why p True (lyra2rev2 u p d x) := by
  unfold lyra2rev2
  why <;> first
    | with_reducible apply CubeHash.why_sum
    | with_reducible apply Bmw.why_sum
    | with_reducible apply why_sum
theorem why_lyra2rev3 (d : Digests) (x : List U8) : Why p True (lyra2rev3 u p d x) := by
  unfold lyra2rev3
  why <;> first
    | with_reducible apply CubeHash.why_sum
    | with_reducible apply Bmw.why_sum
    | with_reducible apply why_modSum
theorem why_lyra2z (d : Digests) (x : List U8) : Why p True (lyra2z u p d x) := by
  unfold lyra2z
  exact why_lyra2 u p _ _ _ _ _ _ (by decide) (by decide)

end Model.Target

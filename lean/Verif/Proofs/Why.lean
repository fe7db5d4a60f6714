import Verif.Proofs.LoopIter
import Verif.Proofs.Lyra2modEq
import Verif.Proofs.Lyra2Post
import Verif.Model.Chains

/-! Which reasons a panic of the model can have. -/

namespace Rust

/-- If `m` panics, the reason is an index out of bounds, in a build with overflow checks an overflow, or, if `cap`, an allocation. -/
def Why {α : Type} (p : Profile) (cap : Prop) (m : Res α) : Prop :=
  ∀ e, m = throw e → e = .bounds ∨ (e = .overflow ∧ p = .debug) ∨ (e = .capacity ∧ cap)

namespace Why

variable {α β σ : Type} {p : Profile} {cap : Prop}

theorem pure (a : α) : Why p cap (Pure.pure a : Res α) := by
  intro e h
  rw [Res.pure_eq, Res.throw_eq] at h
  cases h

theorem bounds : Why p cap (MonadExcept.throw .bounds : Res α) := by
  intro e' h'
  rw [Res.throw_eq, Res.throw_eq] at h'
  cases h'
  exact .inl rfl

theorem bind {m : Res α} {f : α → Res β} (hm : Why p cap m) (hf : ∀ a, Why p cap (f a)) : Why p cap (m >>= f) := by
  intro e h
  rw [Res.throw_eq] at h
  rcases bind_some h with ⟨e', he, h'⟩ | ⟨a, _, h'⟩
  · cases h'
    exact hm e he
  · exact hf a e (by rw [h', Res.throw_eq])

theorem ite {c : Prop} [Decidable c] {m m' : Res α} (h : Why p cap m) (h' : Why p cap m') : Why p cap (if c then m else m') := by
  split <;> assumption

theorem checked {c : Bool} (a : α) : Why p cap (if p.checked && c then MonadExcept.throw .overflow else Pure.pure a : Res α) := by
  intro e h
  cases p with
  | release =>
    simp only [Profile.checked, Bool.false_and, Bool.false_eq_true, if_false] at h
    rw [Res.pure_eq, Res.throw_eq] at h
    cases h
  | debug =>
    split at h
    · rw [Res.throw_eq, Res.throw_eq] at h
      cases h
      exact .inr (.inl ⟨rfl, rfl⟩)
    · rw [Res.pure_eq, Res.throw_eq] at h
      cases h

theorem iadd (a b : I64) : Why p cap (Rust.iadd p a b) := checked _
theorem isub (a b : I64) : Why p cap (Rust.isub p a b) := checked _
theorem imul (a b : I64) : Why p cap (Rust.imul p a b) := checked _
theorem ineg (a : I64) : Why p cap (Rust.ineg p a) := checked _
theorem usub (a b : U64) : Why p cap (Rust.usub p a b) := checked _

theorem usizeAdd (a b : Nat) : Why p cap (Rust.usizeAdd p a b) := by
  unfold Rust.usizeAdd
  refine ite (pure _) ?_
  have := checked (p := p) (cap := cap) (c := true) ((a + b) % 2 ^ 64)
  simpa using this

theorem vget (v : Array α) (i : Nat) : Why p cap (Rust.vget v i) := by
  unfold Rust.vget
  split
  · exact pure _
  · exact bounds

theorem vset (v : Array α) (i : Nat) (x : α) : Why p cap (Rust.vset v i x) := by
  unfold Rust.vset
  split
  · exact pure _
  · exact bounds

theorem aget {n : Nat} (v : Vector α n) (i : Nat) : Why p cap (Rust.aget v i) := by
  unfold Rust.aget
  split
  · exact pure _
  · exact bounds

theorem sget (v : List α) (i : Nat) : Why p cap (Rust.sget v i) := by
  unfold Rust.sget
  split
  · exact pure _
  · exact bounds

theorem slice (v : List α) (i j : Nat) : Why p cap (Rust.slice v i j) :=
  ite (pure _) bounds

theorem splitRight (v : Array α) (i : Nat) : Why p cap (Rust.splitRight v i) :=
  ite (pure _) bounds

theorem vecOf (k : Nat) (x : α) (n : Nat) (hc : cap) : Why p cap (Rust.vecOf k x n) := by
  refine ite (pure _) fun e h => ?_
  rw [Res.throw_eq, Res.throw_eq] at h
  cases h
  exact .inr (.inr ⟨rfl, hc⟩)

theorem forLoop {body : Nat → σ → Res σ} (h : ∀ i s, Why p cap (body i s)) (n i : Nat) (s : σ) :
    Why p cap (Rust.forLoop i n body s) := by
  induction n generalizing i s with
  | zero => exact pure _
  | succ n ih => exact bind (h _ _) fun s => ih _ s

theorem foldlM {l : List α} {f : σ → α → Res σ} (h : ∀ s a, Why p cap (f s a)) (s : σ) : Why p cap (l.foldlM f s) := by
  induction l generalizing s with
  | nil => exact pure _
  | cons a l ih =>
    rw [List.foldlM_cons]
    exact bind (h _ _) ih

theorem unroll12 {f : Fin 12 → σ → Res σ} (h : ∀ w s, Why p cap (f w s)) (s : σ) : Why p cap (Rust.unroll12 f s) :=
  foldlM (fun s w => h w s) s

theorem loop {body : σ → Res (σ ⊕ β)} (h : ∀ s, Why p cap (body s)) (s : σ) : Why p cap (Rust.loop body s) := by
  have hN : ∀ n s, Why p cap (loopN body n s) := by
    intro n
    induction n with
    | zero =>
      intro s e he
      rw [Res.throw_eq] at he
      cases he
    | succ n ih =>
      intro s
      refine bind (h s) fun x => ?_
      match x with
      | .inl s' => exact ih s'
      | .inr b => exact pure b
  intro e he
  rw [Res.throw_eq] at he
  obtain ⟨n, hn⟩ := loopN_of_loop body _ _ he
  exact hN n s e (by rw [hn, Res.throw_eq])

end Why

/-- Goes through a computation step by step. -/
macro "why" : tactic => `(tactic| repeat' first
  | with_reducible exact Why.pure _
  | with_reducible apply Why.iadd
  | with_reducible apply Why.isub
  | with_reducible apply Why.imul
  | with_reducible apply Why.ineg
  | with_reducible apply Why.usub
  | with_reducible apply Why.usizeAdd
  | with_reducible apply Why.vget
  | with_reducible apply Why.vset
  | with_reducible apply Why.sget
  | with_reducible apply Why.slice
  | with_reducible apply Why.splitRight
  | (with_reducible apply Why.vecOf; trivial)
  | with_reducible assumption
  | with_reducible exact Why.bounds
  | with_reducible apply Why.bind
  | with_reducible apply Why.ite
  | with_reducible apply Why.forLoop
  | with_reducible apply Why.unroll12
  | with_reducible apply Why.foldlM
  | with_reducible apply Why.loop
  | with_reducible intro _
  | split)

end Rust

namespace Model

open Rust

theorem why_read_u64_le {p : Profile} {cap : Prop} (d : List U8) : Why p cap (Utils.read_u64_le d) := by
  unfold Utils.read_u64_le; why

theorem why_read_u32_le {p : Profile} {cap : Prop} (d : List U8) : Why p cap (Utils.read_u32_le d) := by
  unfold Utils.read_u32_le; why

namespace Lyra2

variable (p : Profile) {cap : Prop}

theorem why_squeeze (s : State) (n : U64) : Why p True (squeeze p s n) := by unfold squeeze; why
theorem why_absorb_block (s : State) (w : Array U64) : Why p cap (absorb_block s w) := by unfold absorb_block; why
theorem why_absorb_block_blake2_safe (s : State) (w : Array U64) : Why p cap (absorb_block_blake2_safe s w) := by
  unfold absorb_block_blake2_safe; why
theorem why_allocMatrix (r c : U64) : Why p True (allocMatrix p r c) := by unfold allocMatrix; why
theorem why_nBlocksInput (a b : Nat) : Why p cap (nBlocksInput p a b) := by unfold nBlocksInput; why
theorem why_writeWords (b : List U8) (i : Nat) (m : Matrix) : Why p cap (writeWords b i m) := by
  unfold writeWords; why; apply why_read_u64_le
theorem why_writeInput (k : U64) (pwd salt : List U8) (t r c : U64) (n : I64) (m : Matrix) :
    Why p cap (writeInput p k pwd salt t r c n m) := by
  have := fun b i m => why_writeWords p (cap := cap) b i m
  unfold writeInput
  why <;> apply this
theorem why_absorbInput (n : I64) (m : Matrix) (s : State) : Why p cap (absorbInput n m s) := by
  unfold absorbInput; why; apply why_absorb_block_blake2_safe
theorem why_squeezeRow0 (c : U64) (s : State) (m : Matrix) : Why p cap (squeezeRow0 p c s m) := by unfold squeezeRow0; why
theorem why_idxRow0 (i : U64) (w : Fin 12) : Why p cap (idxRow0 p i w) := by unfold idxRow0; why
theorem why_idxRow1Rev (c : U64) (r : I64) (i : U64) (w : Fin 12) : Why p cap (idxRow1Rev p c r i w) := by
  unfold idxRow1Rev; why
theorem why_idx (l : I64) (i : U64) (r : I64) (w : Fin 12) : Why p cap (idx p l i r w) := by unfold idx; why
theorem why_idxRev (c : U64) (l : I64) (i : U64) (r : I64) (w : Fin 12) : Why p cap (idxRev p c l i r w) := by
  unfold idxRev; why
theorem why_duplexRow1 (c : U64) (l : I64) (s : State) (m : Matrix) : Why p cap (duplexRow1 p c l s m) := by
  unfold duplexRow1; why <;> first | with_reducible apply why_idxRow0 | with_reducible apply why_idxRow1Rev
theorem why_absorbSum (l : I64) (i : U64) (a b : I64) (m : Matrix) (s : State) : Why p cap (absorbSum p l i a b m s) := by
  unfold absorbSum; why <;> apply why_idx
theorem why_xorRotW (l : I64) (i : U64) (a : I64) (s : State) (m : Matrix) : Why p cap (xorRotW p l i a s m) := by
  unfold xorRotW; why; apply why_idx
theorem why_duplexRowSetup (c : U64) (l a b r : I64) (s : State) (m : Matrix) : Why p cap (duplexRowSetup p c l a b r s m) := by
  unfold duplexRowSetup; why <;> first | with_reducible apply why_idx | with_reducible apply why_idxRev | with_reducible apply why_absorbSum | with_reducible apply why_xorRotW
theorem why_next (v : SetupVars) : Why p cap (v.next p) := by unfold SetupVars.next; why
theorem why_setupRows (r c : U64) (l : I64) (s : State) (m : Matrix) : Why p cap (setupRows p r c l s m) := by
  unfold setupRows; why <;> first | with_reducible apply why_duplexRowSetup | with_reducible apply why_next
theorem why_duplexRow (c : U64) (l a b r : I64) (s : State) (m : Matrix) : Why p cap (duplexRow p c l a b r s m) := by
  unfold duplexRow; why <;> first | with_reducible apply why_idx | with_reducible apply why_absorbSum | with_reducible apply why_xorRotW
theorem why_wanderBody (r c : U64) (l st : I64) (v : WanderVars) : Why p cap (wanderBody p r c l st v) := by
  unfold wanderBody; why; apply why_duplexRow
theorem why_wanderStep (r : U64) (t : Nat) : Why p cap (wanderStep p r t) := by unfold wanderStep; why
theorem why_wander (t r c : U64) (l : I64) (v : WanderVars) : Why p cap (wander p t r c l v) := by
  unfold wander; why <;> first | with_reducible apply why_wanderStep | with_reducible apply why_wanderBody
theorem why_wrapUp (k : U64) (l : I64) (v : WanderVars) : Why p True (wrapUp p k l v) := by
  unfold wrapUp; why <;> first | with_reducible apply why_absorb_block | with_reducible apply why_squeeze
theorem why_lyra2 (k : U64) (pwd salt : List U8) (t r c : U64) (ht : 1 ≤ t.toNat) (hr : 3 ≤ r.toNat) :
    Why p True (lyra2 p k pwd salt t r c) := by
  unfold lyra2
  rw [if_neg (by omega), if_neg (by omega)]
  why
  all_goals first
    | with_reducible apply why_allocMatrix
    | with_reducible apply why_nBlocksInput
    | with_reducible apply why_writeInput
    | with_reducible apply why_absorbInput
    | with_reducible apply why_squeezeRow0
    | with_reducible apply why_duplexRow1
    | with_reducible apply why_setupRows
    | with_reducible apply why_wander
    | with_reducible apply why_wrapUp

end Lyra2

namespace Lyra2mod

open Proofs.Lyra2

variable (p : Profile) {cap : Prop}

theorem why_wanderBody (r c : U64) (l st : I64) (v : WanderVars) : Why p cap (wanderBody p r c l st v) := by
  have := fun (i : Nat) => show Why p cap (aget v.state i) from Why.aget v.state i
  unfold wanderBody
  rw [mod_duplexRow]
  why
  · apply this
  · apply this
  · apply Lyra2.why_duplexRow
theorem why_wander (t r c : U64) (l : I64) (v : WanderVars) : Why p cap (wander p t r c l v) := by
  unfold wander
  rw [mod_wanderStep]
  why
  · apply Lyra2.why_wanderStep
  · apply why_wanderBody
theorem why_wrapUp (k : U64) (l : I64) (v : WanderVars) : Why p True (wrapUp p k l v) := by
  unfold wrapUp
  rw [mod_absorb_block, mod_squeeze]
  why
  · apply Lyra2.why_absorb_block
  · apply Lyra2.why_squeeze
theorem why_lyra2mod (k : U64) (pwd salt : List U8) (t r c : U64) (ht : 1 ≤ t.toNat) (hr : 3 ≤ r.toNat) :
    Why p True (lyra2mod p k pwd salt t r c) := by
  unfold lyra2mod
  rw [if_neg (by omega), if_neg (by omega)]
  rw [mod_alloc, mod_nBlocks, mod_writeInput, mod_absorbInput, mod_squeezeRow0, mod_duplexRow1, mod_setupRows]
  why
  all_goals first
    | with_reducible apply Lyra2.why_allocMatrix
    | with_reducible apply Lyra2.why_nBlocksInput
    | with_reducible apply Lyra2.why_writeInput
    | with_reducible apply Lyra2.why_absorbInput
    | with_reducible apply Lyra2.why_squeezeRow0
    | with_reducible apply Lyra2.why_duplexRow1
    | with_reducible apply Lyra2.why_setupRows
    | with_reducible apply why_wander
    | with_reducible apply why_wrapUp

end Lyra2mod

theorem CubeHash.why_input_block {p : Profile} {cap : Prop} (d : List U8) (c : CubeHash) : Why p cap (CubeHash.input_block d c) := by
  unfold CubeHash.input_block
  why <;> apply why_read_u32_le

theorem CubeHash.why_sum (p : Profile) {cap : Prop} (d : List U8) : Why p cap (CubeHash.sum d) := by
  unfold CubeHash.sum CubeHash.finalState
  why <;> apply CubeHash.why_input_block

theorem Bmw.why_bset {p : Profile} {cap : Prop} (b : List U8) (i : Nat) (x : U8) : Why p cap (Bmw.bset b i x) := by
  unfold Bmw.bset
  why

theorem Bmw.why_sum (p : Profile) {cap : Prop} (d : List U8) : Why p cap (Bmw.sum d) := by
  unfold Bmw.sum Bmw.padBuf Bmw.loadWords
  why <;> first | with_reducible apply Bmw.why_bset | with_reducible apply why_read_u32_le

namespace Chains

theorem why_lyra2re (p : Profile) (d : Digests) (x : List U8) : Why p True (Lyra2re.sum p d x) := by
  unfold Lyra2re.sum
  why
  exact Lyra2.why_lyra2 p _ _ _ _ _ _ (by decide) (by decide)
theorem why_lyra2rev2 (p : Profile) (d : Digests) (x : List U8) : Why p True (Lyra2rev2.sum p d x) := by
  unfold Lyra2rev2.sum Lyra2.sum
  why
  · apply CubeHash.why_sum
  · exact Lyra2.why_lyra2 p _ _ _ _ _ _ (by decide) (by decide)
  · apply CubeHash.why_sum
  · apply Bmw.why_sum
theorem why_lyra2rev3 (p : Profile) (d : Digests) (x : List U8) : Why p True (Lyra2rev3.sum p d x) := by
  unfold Lyra2rev3.sum Lyra2mod.sum
  why
  · exact Lyra2mod.why_lyra2mod p _ _ _ _ _ _ (by decide) (by decide)
  · apply CubeHash.why_sum
  · exact Lyra2mod.why_lyra2mod p _ _ _ _ _ _ (by decide) (by decide)
  · apply Bmw.why_sum
theorem why_lyra2z (p : Profile) (d : Digests) (x : List U8) : Why p True (Lyra2z.sum p d x) := by
  unfold Lyra2z.sum
  exact Lyra2.why_lyra2 p _ _ _ _ _ _ (by decide) (by decide)

end Chains

end Model

namespace Proofs.Lyra2

open Rust Rust.Res Model.Lyra2

/-- Without overflow checks the allocation fails or yields a matrix of the wrapped size. -/
theorem allocMatrix_release (R C : U64) : allocMatrix .release R C =
    if (R * (12#64 * C)).toInt < 0 ∨ isizeMax < 8 * (R * (12#64 * C)).toInt then throw .capacity
    else pure (12#64 * C, Array.replicate (R * (12#64 * C)).toNat 0) := by
  unfold allocMatrix imul vecOf
  simp only [Profile.checked, Bool.false_and, Bool.false_eq_true, if_false, pure_bind]
  have h := BitVec.toInt_eq_toNat_cond (R * (12#64 * C))
  have hlt := (R * (12#64 * C)).isLt
  show (if 8 * (R * (12#64 * C)).toNat ≤ isizeMax then _ else _) >>= _ = _
  unfold isizeMax
  by_cases hc : 8 * (R * (12#64 * C)).toNat ≤ 2 ^ 63 - 1
  · rw [if_pos hc, if_neg (by split at h <;> omega)]
    rfl
  · rw [if_neg hc, if_pos (by split at h <;> omega)]
    rfl

/-- A call whose sizes overflow, without overflow checks, for `n_rows < 2^63`. -/
theorem front_release {k T R C : U64} {pwd salt : List U8} (hR3 : 3 ≤ R.toNat) (hR : R.toNat < 2 ^ 63)
    (h : ¬ 96 * (R.toNat * C.toNat) < 2 ^ 63) :
    front .release k pwd salt T R C =
      throw (if (R * (12#64 * C)).toInt < 0 ∨ isizeMax < 8 * (R * (12#64 * C)).toInt then .capacity else .bounds) := by
  have hpost := front_post .release k T R C pwd salt hR3
  obtain ⟨e, he⟩ := (hpost.mono fun _ hx => h (hx (.inr hR)).1).panics
  by_cases hc : (R * (12#64 * C)).toInt < 0 ∨ isizeMax < 8 * (R * (12#64 * C)).toInt
  · rw [if_pos hc]
    unfold front
    rw [allocMatrix_release, if_pos hc]
    rfl
  · rw [if_neg hc, he]
    have hw : Why .release False (front .release k pwd salt T R C) := by
      unfold front
      rw [allocMatrix_release, if_neg hc, pure_bind]
      why
      · apply why_nBlocksInput
      · apply why_writeInput
      · apply why_absorbInput
      · apply why_squeezeRow0
      · apply why_duplexRow1
      · apply why_setupRows
    rcases hw e he with h | h | h
    · rw [h]
    · exact absurd h.2 (by simp)
    · exact h.2.elim

end Proofs.Lyra2

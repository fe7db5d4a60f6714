import Verif.Proofs.Lyra2Post

/-! `lyra2` and `lyra2mod` never diverge; exactly when they return. -/

namespace Proofs.Lyra2
open Rust Rust.Res Model.Utils Model.Lyra2 Spec Spec.Lyra2 Proofs.Sponge

/-- What the body of a pass does to the row, for any arguments. -/
def BodyPost {σ : Type} (row : σ → BitVec 64) (step mask : BitVec 64) (Q : σ → Prop) (v : σ) : σ ⊕ σ → Prop
  | .inl v' => row v' = (row v + step) &&& mask ∧ row v' ≠ 0 ∧ Q v'
  | .inr v' => row v' = 0 ∧ Q v'

/-- A pass always ends. -/
theorem pass_post {σ : Type} {body : σ → Res (σ ⊕ σ)} (row : σ → BitVec 64) (step mask : BitVec 64) (Q : σ → Prop)
    (h : ∀ v, Q v → (body v).Post (BodyPost row step mask Q v)) (v : σ) (hv : row v = 0) (hQ : Q v) :
    (loop body v).Post (fun v' => row v' = 0 ∧ Q v') := by
  obtain ⟨n, hn1, -, hn⟩ := mask_orbit_returns step mask
  refine loop_post (fun k v => 1 ≤ k ∧ (fun x => (x + step) &&& mask)^[k] (row v) = 0 ∧ Q v)
    (fun v' => row v' = 0 ∧ Q v') (fun k v ⟨hk, hit, hq⟩ => ?_) n v ⟨hn1, by rw [hv]; exact hn, hQ⟩
  refine (h v hq).mono fun r hr => ?_
  match r, hr with
  | .inl v', ⟨h1, h2, h3⟩ =>
    obtain ⟨k', rfl⟩ : ∃ k', k = k' + 1 := ⟨k - 1, by omega⟩
    rw [Function.iterate_succ_apply] at hit
    refine ⟨k', by omega, ?_, by rw [h1]; exact hit, h3⟩
    by_contra hk'
    have : k' = 0 := by omega
    subst this
    exact h2 (h1.trans hit)
  | .inr v', h => exact h

theorem passes_post {σ : Type} {T : Nat} {pass : Nat → σ → Res σ} (Q : σ → Prop)
    (step : ∀ τ v, Q v → (pass τ v).Post Q) (v : σ) (h : Q v) : (forLoop 1 T pass v).Post Q :=
  forLoop_post (fun _ => Q) 1 T v h fun _ v _ hv => step _ v hv

theorem duplexRow_post (p : Profile) (C : U64) (l prev rowa row : I64) (s : State) (m : Matrix) :
    (duplexRow p C l prev rowa row s m).Post (fun x => x.2.size = m.size) := by
  unfold duplexRow
  have := forLoop_post (fun j (x : State × Matrix) => x.2.size = m.size) 0 C.toNat (s, m) rfl (body := fun i x => do
    let i := BitVec.ofNat 64 i
    let state ← absorbSum p l i prev rowa x.2 x.1
    let state := reduced_blake2b_lyra state
    let m ← unroll12 (fun w m => do
      let j ← idx p l i row w
      let x ← vget m j
      vset m j (x ^^^ state[w])) x.2
    let m ← xorRotW p l i rowa state m
    pure (state, m)) ?_
  · exact this
  · rintro j ⟨s', m'⟩ hj h1
    dsimp only at h1 ⊢
    refine Post.triv (absorbSum_post _ _ _ _ _ _ _) fun s'' => ?_
    refine Post.bind (unroll12_post (fun _ (m'' : Matrix) => m''.size = m.size) m' h1 fun w m1 hm1 => ?_) fun m2 hm2 => ?_
    · exact Post.triv (idx_post _ _ _ _ _) fun x => Post.triv (vget_post _ _) fun y =>
        (vset_post _ _ _).mono fun m3 h3 => by rw [h3.2, hm1]
    · exact Post.bind (xorRotW_post _ _ _ _ _ _) fun m3 h3 => .pure (by rw [h3, hm2])

theorem wanderBody_post (p : Profile) (R C : U64) (l step : I64) (v : WanderVars) :
    (wanderBody p R C l step v).Post (BodyPost WanderVars.row step (R - 1#64) (fun _ => True) v) := by
  unfold wanderBody
  refine Post.triv (usub_post _ _ _) fun a => Post.triv (duplexRow_post _ _ _ _ _ _ _ _) fun x => ?_
  refine Post.bind (iadd_post _ _ _) fun b hb => Post.bind (isub_post _ _ _) fun c hc => ?_
  subst hb hc
  dsimp only
  split
  · rename_i h; exact .pure ⟨h, trivial⟩
  · rename_i h; exact .pure ⟨rfl, h, trivial⟩

theorem wanderStep_post (p : Profile) (R : U64) (τ : Nat) : (wanderStep p R τ).Post (fun _ => True) := by
  unfold wanderStep
  refine Post.triv (isub_post _ _ _) fun a => ?_
  split <;> exact .pure trivial

theorem wander_post (p : Profile) (T R C : U64) (l : I64) (v : WanderVars) (h : v.row = 0) :
    (Model.Lyra2.wander p T R C l v).Post (fun _ => True) := by
  unfold Model.Lyra2.wander
  refine Post.weaken (passes_post (fun v => v.row = 0) (fun τ v hv => ?_) v h)
  refine Post.triv (wanderStep_post _ _ _) fun step => ?_
  exact (pass_post WanderVars.row step (R - 1#64) (fun _ => True) (fun v _ => wanderBody_post p R C l step v) v hv trivial).mono
    fun _ h => h.1

theorem mod_wanderBody_post (p : Profile) (R C : U64) (l step : I64) (v : Model.Lyra2mod.WanderVars) :
    (Model.Lyra2mod.wanderBody p R C l step v).Post
      (BodyPost Model.Lyra2mod.WanderVars.row step (R - 1#64) (fun _ => True) v) := by
  unfold Model.Lyra2mod.wanderBody
  refine Post.triv (aget_post _ _) fun i => Post.triv (aget_post _ _) fun i' => ?_
  simp only [mod_duplexRow]
  refine Post.triv (usub_post _ _ _) fun a => Post.triv (duplexRow_post _ _ _ _ _ _ _ _) fun x => ?_
  refine Post.bind (iadd_post _ _ _) fun b hb => Post.bind (isub_post _ _ _) fun c hc => ?_
  subst hb hc
  split
  · rename_i h; exact .pure ⟨h, trivial⟩
  · rename_i h; exact .pure ⟨rfl, h, trivial⟩

theorem mod_wander_post (p : Profile) (T R C : U64) (l : I64) (v : Model.Lyra2mod.WanderVars) (h : v.row = 0) :
    (Model.Lyra2mod.wander p T R C l v).Post (fun _ => True) := by
  unfold Model.Lyra2mod.wander
  refine Post.weaken (passes_post (fun v => v.row = 0) (fun τ v hv => ?_) v h)
  rw [mod_wanderStep]
  refine Post.triv (wanderStep_post _ _ _) fun step => ?_
  exact (pass_post Model.Lyra2mod.WanderVars.row step (R - 1#64) (fun _ => True)
    (fun v _ => mod_wanderBody_post p R C l step v) v hv trivial).mono fun _ h => h.1

/-! ## Squeezing and the end -/

theorem squeeze_post (p : Profile) (s : State) (k : U64) :
    (Model.Lyra2.squeeze p s k).Post (fun out => k.toNat ≤ 96 ∧ out = ((s.toList.take 12).flatMap toLeBytes64).take k.toNat) := by
  by_cases h : k.toNat ≤ 96
  · have := squeeze_ok p s h
    rw [BitVec.ofNat_toNat, BitVec.setWidth_eq] at this
    rw [this]
    exact .pure ⟨h, rfl⟩
  · exact .inl (squeeze_panics p s (by omega))

theorem wrapUp_post (p : Profile) (k : U64) (l : I64) (v : WanderVars) :
    (wrapUp p k l v).Post (fun out => k.toNat ≤ 96 ∧ ∃ s : State, out = ((s.toList.take 12).flatMap toLeBytes64).take k.toNat) := by
  unfold wrapUp
  exact Post.triv (imul_post _ _ _) fun a => Post.triv (splitRight_post _ _) fun r => Post.triv (absorb12_post _ _) fun s =>
    (squeeze_post p s k).mono fun out h => ⟨h.1, s, h.2⟩

/-- What holds of every run that returns `out`. -/
def RunPost (p : Profile) (k : U64) (a b : Nat) (T R C : U64) (out : List U8) : Prop :=
  1 ≤ T.toNat ∧ 3 ≤ R.toNat ∧ k.toNat ≤ 96 ∧ (∃ s : State, out = ((s.toList.take 12).flatMap toLeBytes64).take k.toNat) ∧
    ((p = .debug ∨ R.toNat < 2 ^ 63) → Domain k.toNat a b T.toNat R.toNat C.toNat)

theorem lyra2_post (p : Profile) (k T R C : U64) (pwd salt : List U8) :
    (lyra2 p k pwd salt T R C).Post (RunPost p k pwd.length salt.length T R C) := by
  rw [lyra2_front]
  by_cases hT : T.toNat < 1
  · rw [if_pos hT]; exact .throw
  by_cases hR : R.toNat < 3
  · rw [if_neg hT, if_pos hR]; exact .throw
  rw [if_neg hT, if_neg hR]
  refine Post.bind (front_post p k T R C pwd salt (by omega)) fun x hx => ?_
  refine Post.triv (wander_post _ _ _ _ _ _ rfl) fun w => ?_
  refine (wrapUp_post _ _ _ _).mono fun out h => ⟨by omega, by omega, h.1, h.2, fun hp => ?_⟩
  exact ⟨by omega, by omega, h.1, (hx hp).1, (hx hp).2⟩

theorem lyra2mod_post (p : Profile) (k T R C : U64) (pwd salt : List U8) :
    (Model.Lyra2mod.lyra2mod p k pwd salt T R C).Post (RunPost p k pwd.length salt.length T R C) := by
  rw [lyra2mod_front]
  by_cases hT : T.toNat < 1
  · rw [if_pos hT]; exact .throw
  by_cases hR : R.toNat < 3
  · rw [if_neg hT, if_pos hR]; exact .throw
  rw [if_neg hT, if_neg hR]
  refine Post.bind (front_post p k T R C pwd salt (by omega)) fun x hx => ?_
  refine Post.triv (mod_wander_post _ _ _ _ _ _ rfl) fun w => ?_
  rw [mod_wrapUp]
  refine (wrapUp_post _ _ _ _).mono fun out h => ⟨by omega, by omega, h.1, h.2, fun hp => ?_⟩
  exact ⟨by omega, by omega, h.1, (hx hp).1, (hx hp).2⟩

end Proofs.Lyra2

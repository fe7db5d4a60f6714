import Verif.Proofs.Lyra2Total

/-! Without overflow checks, `n_rows = 2^63 + R'` runs on a matrix of `R'` rows. -/

namespace Proofs.Lyra2
open Rust Rust.Res Model.Utils Model.Lyra2 Spec Spec.Lyra2 Proofs.Sponge

/-- `r` without its top bit. -/
def low (r : I64) : I64 := BitVec.ofNat 64 (r.toNat % 2 ^ 63)

theorem iadd_release (a b : I64) : iadd .release a b = pure (a + b) := rfl
theorem imul_release (a b : I64) : imul .release a b = pure (a * b) := rfl
theorem isub_release (a b : I64) : isub .release a b = pure (a - b) := rfl
theorem usub_release (a b : I64) : usub .release a b = pure (a - b) := rfl

/-- The top bit of a row number is lost when it is multiplied by an even row length. -/
theorem mul_low (r : I64) (C : Nat) : r * BitVec.ofNat 64 (12 * C) = low r * BitVec.ofNat 64 (12 * C) := by
  have hr := r.isLt
  unfold low
  apply BitVec.eq_of_toNat_eq
  rw [BitVec.toNat_mul, BitVec.toNat_mul, toNat_ofNat64 (a := r.toNat % 2 ^ 63) (by omega), BitVec.toNat_ofNat,
    Nat.mul_mod_mod, Nat.mul_mod_mod]
  have e : r.toNat = r.toNat % 2 ^ 63 + 2 ^ 63 * (r.toNat / 2 ^ 63) := by omega
  generalize r.toNat % 2 ^ 63 = a at *
  generalize r.toNat / 2 ^ 63 = b at *
  rw [e, show (a + 2 ^ 63 * b) * (12 * C) = a * (12 * C) + 2 ^ 64 * (6 * b * C) by ring, Nat.add_mul_mod_self_left]

theorem idx_low (C : Nat) (i : U64) (r : I64) (w : Fin 12) :
    idx .release (BitVec.ofNat 64 (12 * C)) i r w = idx .release (BitVec.ofNat 64 (12 * C)) i (low r) w := by
  unfold idx
  rw [imul_release r, imul_release (low r), mul_low]

theorem duplexRow_low (C : Nat) (n : U64) (prev rowa row : I64) (s : State) (m : Matrix) :
    duplexRow .release n (BitVec.ofNat 64 (12 * C)) prev rowa row s m =
      duplexRow .release n (BitVec.ofNat 64 (12 * C)) (low prev) (low rowa) (low row) s m := by
  unfold duplexRow absorbSum xorRotW
  simp only [idx_low C _ prev, idx_low C _ rowa, idx_low C _ row]

theorem and_low {R : Nat} (h1 : 1 ≤ R) (h2 : R < 2 ^ 60) (x : U64) :
    (x &&& (BitVec.ofNat 64 (2 ^ 63 + R) - 1)).toNat % 2 ^ 63 < R := by
  have e : (BitVec.ofNat 64 (2 ^ 63 + R) - 1).toNat = 2 ^ 63 + R - 1 := by
    rw [show (1 : BitVec 64) = BitVec.ofNat 64 1 from rfl, BitVec.toNat_sub_of_le, toNat_ofNat64 (by omega), toNat_ofNat64 (by omega)]
    rw [BitVec.le_def, toNat_ofNat64 (by omega), toNat_ofNat64 (by omega)]; omega
  rw [BitVec.toNat_and, e, Nat.and_mod_two_pow]
  have := Nat.and_le_right (n := x.toNat % 2 ^ 63) (m := (2 ^ 63 + R - 1) % 2 ^ 63)
  omega

/-- What is known of the variables of the wandering phase. -/
def Wraps (R C : Nat) (v : WanderVars) : Prop :=
  v.m.size = 12 * (R * C) ∧ v.prev.toNat % 2 ^ 63 < R ∧ v.row.toNat % 2 ^ 63 < R ∧ v.rowa.toNat % 2 ^ 63 < R

theorem wanderBody_wraps {R C : Nat} (hM : 12 * (R * C) < 2 ^ 60) (hR : 2 ≤ R) (hC : 0 < C) (step : I64) (v : WanderVars)
    (hv : Wraps R C v) :
    (wanderBody .release (BitVec.ofNat 64 (2 ^ 63 + R)) (BitVec.ofNat 64 C) (BitVec.ofNat 64 (12 * C)) step v).Sat
      (BodyPost WanderVars.row step (BitVec.ofNat 64 (2 ^ 63 + R) - 1) (Wraps R C) v) := by
  obtain ⟨-, -, -, -, hR', -, -⟩ := bounds hM (show 0 < R by omega) hC
  obtain ⟨h1, h2, h3, h4⟩ := hv
  obtain ⟨M, hm⟩ := Rep.of_size h1
  unfold wanderBody
  rw [usub_release, pure_bind]
  dsimp only
  rw [duplexRow_low]
  have ha := and_low (show 1 ≤ R by omega) hR' v.state[0]
  refine Sat.bind (duplexRow_ok .release hM hm h2 ha h3 hC) fun x hx => ?_
  obtain ⟨s', m'⟩ := x
  dsimp only
  rw [iadd_release, pure_bind, isub_release, pure_bind]
  have hn := and_low (show 1 ≤ R by omega) hR' (v.row + step)
  by_cases h0 : (v.row + step) &&& (BitVec.ofNat 64 (2 ^ 63 + R) - 1) = 0
  · rw [if_pos h0]; exact .pure ⟨h0, hx.2.1, h3, hn, ha⟩
  · rw [if_neg h0]; exact .pure ⟨rfl, h0, hx.2.1, h3, hn, ha⟩

/-- A pass whose rounds all return ends. -/
theorem pass_sat {σ : Type} {body : σ → Res (σ ⊕ σ)} (row : σ → BitVec 64) (step mask : BitVec 64) (Q : σ → Prop)
    (h : ∀ v, Q v → (body v).Sat (BodyPost row step mask Q v)) (v : σ) (hv : row v = 0) (hQ : Q v) :
    (loop body v).Sat (fun v' => row v' = 0 ∧ Q v') := by
  obtain ⟨n, hn1, -, hn⟩ := mask_orbit_returns step mask
  refine loop_sat (fun k v => 1 ≤ k ∧ (fun x => (x + step) &&& mask)^[k] (row v) = 0 ∧ Q v)
    (fun v' => row v' = 0 ∧ Q v') (fun k v ⟨hk, hit, hq⟩ => ?_) n v ⟨hn1, by rw [hv]; exact hn, hQ⟩
  refine (h v hq).mono fun r hr => ?_
  match r, hr with
  | .inl v', ⟨h1, h2, h3⟩ =>
    obtain ⟨k', rfl⟩ : ∃ k', k = k' + 1 := ⟨k - 1, by omega⟩
    rw [Function.iterate_succ_apply] at hit
    refine ⟨k', by omega, ?_, by rw [h1]; exact hit, h3⟩
    by_contra hk'
    have : k' = 0 := by omega
    subst this
    exact h2 (h1.trans hit)
  | .inr v', h => exact h

theorem wander_wraps {R C : Nat} (hM : 12 * (R * C) < 2 ^ 60) (hR : 2 ≤ R) (hC : 0 < C) (T : U64) (v : WanderVars)
    (h0 : v.row = 0) (hv : Wraps R C v) :
    (Model.Lyra2.wander .release T (BitVec.ofNat 64 (2 ^ 63 + R)) (BitVec.ofNat 64 C) (BitVec.ofNat 64 (12 * C)) v).Sat
      (Wraps R C) := by
  unfold Model.Lyra2.wander
  refine (forLoop_sat (fun _ v => v.row = 0 ∧ Wraps R C v) 1 _ _ ⟨h0, hv⟩ fun j v _ hv => ?_).mono fun _ h => h.2
  have hstep : ∃ st, wanderStep .release (BitVec.ofNat 64 (2 ^ 63 + R)) (1 + j) = pure st := by
    unfold wanderStep
    rw [isub_release, pure_bind]
    split
    · exact ⟨_, rfl⟩
    · exact ⟨_, rfl⟩
  obtain ⟨st, hst⟩ := hstep
  rw [hst, pure_bind]
  exact pass_sat WanderVars.row st _ (Wraps R C) (fun v h => wanderBody_wraps hM hR hC st v h) v hv.1 hv.2

theorem allocMatrix_wraps {R C : Nat} (hM : 12 * (R * C) < 2 ^ 60) :
    allocMatrix .release (BitVec.ofNat 64 (2 ^ 63 + R)) (BitVec.ofNat 64 C) =
      pure (BitVec.ofNat 64 (12 * C), Array.replicate (12 * (R * C)) 0) := by
  have e1 : BLOCKLENINT64 * BitVec.ofNat 64 C = BitVec.ofNat 64 (12 * C) := by rw [BitVec.ofNat_mul]; rfl
  have e2 : (BitVec.ofNat 64 (2 ^ 63 + R) * BitVec.ofNat 64 (12 * C)).toNat = 12 * (R * C) := by
    rw [← BitVec.ofNat_mul, BitVec.toNat_ofNat,
      show (2 ^ 63 + R) * (12 * C) = 12 * (R * C) + 2 ^ 64 * (6 * C) by ring, Nat.add_mul_mod_self_left,
      Nat.mod_eq_of_lt (by omega)]
  unfold allocMatrix
  rw [imul_release, pure_bind, e1, imul_release, pure_bind, e2]
  unfold vecOf
  rw [if_pos (by unfold isizeMax; omega), pure_bind]

theorem setupRows_wraps {R : Nat} (hR : R < 2 ^ 60) (C : U64) (l : I64) (s : State) (m : Matrix) :
    Model.Lyra2.setupRows .release (BitVec.ofNat 64 (2 ^ 63 + R)) C l s m = pure (s, m, SetupVars.start) := by
  have : irangeLen 2 (BitVec.ofNat 64 (2 ^ 63 + R)) = 0 := by
    unfold irangeLen
    rw [BitVec.toInt_eq_toNat_cond (BitVec.ofNat 64 (2 ^ 63 + R)), toNat_ofNat64 (by omega), if_neg (by omega),
      show (2 : BitVec 64).toInt = 2 from rfl]
    omega
  unfold Model.Lyra2.setupRows
  rw [this]
  rfl

theorem wrapUp_wraps {k R C : Nat} (hk : k ≤ 96) (hM : 12 * (R * C) < 2 ^ 60) (hC : 0 < C) {v : WanderVars} (hv : Wraps R C v) :
    ∃ out, wrapUp .release (BitVec.ofNat 64 k) (BitVec.ofNat 64 (12 * C)) v = pure out := by
  obtain ⟨M, hm⟩ := Rep.of_size hv.1
  have := absorb_block_ok hm hv.2.2.2 hC v.state .release hM
  unfold wrapUp
  rw [imul_release, pure_bind, mul_low]
  rw [imul_release, pure_bind] at this
  unfold low
  rw [← bind_assoc, this, pure_bind, squeeze_ok .release _ hk]
  exact ⟨_, rfl⟩

theorem lyra2_wraps (k T : U64) (pwd salt : List U8) {R C : Nat} (hT : 1 ≤ T.toNat) (hk : k.toNat ≤ 96) (hR : 2 ≤ R)
    (hM : 12 * (R * C) < 2 ^ 60) (hI : 8 * nBlocks (pwd.length + salt.length) ≤ 12 * (R * C)) :
    ∃ out, lyra2 .release k pwd salt T (BitVec.ofNat 64 (2 ^ 63 + R)) (BitVec.ofNat 64 C) = pure out := by
  have hC : 0 < C := by
    by_contra hc
    have : C = 0 := by omega
    subst this
    unfold nBlocks at hI
    omega
  obtain ⟨-, -, h12, hC', hR', -, -⟩ := bounds hM (show 0 < R by omega) hC
  have hI' : pwd.length + salt.length + 48 < 2 ^ 63 := by unfold nBlocks at hI; omega
  suffices h : (lyra2 .release k pwd salt T (BitVec.ofNat 64 (2 ^ 63 + R)) (BitVec.ofNat 64 C)).Sat (fun _ => True) by
    obtain ⟨out, h, -⟩ := h; exact ⟨out, h⟩
  rw [lyra2_front, if_neg (by omega), if_neg (by rw [toNat_ofNat64 (by omega)]; omega)]
  unfold front
  rw [allocMatrix_wraps hM]
  simp only [pure_bind, bind_assoc]
  rw [nBlocksInput_ok .release hI', pure_bind]
  refine Sat.bind (writeInput_ok .release k T _ _ pwd salt hM hI) fun m hm => ?_
  rw [absorbInput_ok hm hI (by unfold nBlocks; omega), pure_bind]
  obtain ⟨M0, hM0⟩ := Rep.of_size hm.1
  refine Sat.bind (squeezeRow0_ok .release hM hM0 (by omega) hC) fun x hx => ?_
  obtain ⟨s1, m1⟩ := x
  obtain ⟨-, h2⟩ := hx
  dsimp only at h2 ⊢
  refine Sat.bind (duplexRow1_ok .release hM h2 (by omega) hC) fun x hx => ?_
  obtain ⟨s2, m2⟩ := x
  obtain ⟨-, h4⟩ := hx
  dsimp only at h4 ⊢
  rw [setupRows_wraps hR', pure_bind]
  refine Sat.bind (wander_wraps hM hR hC T _ rfl ⟨h4.1, ?_, ?_, ?_⟩) fun w hw => ?_
  · show 1 % 2 ^ 63 < R; omega
  · show 0 % 2 ^ 63 < R; omega
  · show 0 % 2 ^ 63 < R; omega
  · obtain ⟨out, h⟩ := wrapUp_wraps hk hM hC hw
    rw [BitVec.ofNat_toNat, BitVec.setWidth_eq] at h
    rw [h]
    exact .pure trivial

end Proofs.Lyra2

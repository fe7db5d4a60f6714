import Verif.Proofs.Lyra2Wrap

/-! `lyra2mod` without overflow checks: `n_rows = 2^63 + R'` runs on a matrix of `R'` rows, as in `lyra2`. -/

namespace Proofs.Lyra2
open Rust Rust.Res Model.Utils Model.Lyra2 Spec Spec.Lyra2 Proofs.Sponge

/-- What is known of the variables of the wandering phase. -/
def WrapsM (R C : Nat) (v : Model.Lyra2mod.WanderVars) : Prop :=
  v.m.size = 12 * (R * C) ∧ v.prev.toNat % 2 ^ 63 < R ∧ v.row.toNat % 2 ^ 63 < R ∧ v.rowa.toNat % 2 ^ 63 < R

theorem aget_and15 (s : State) (n : Nat) : ∃ x, aget s (n &&& 0xf) = pure x := by
  have : n &&& 0xf < 16 := by
    have : n &&& 0xf ≤ 0xf := Nat.and_le_right
    omega
  unfold aget
  rw [dif_pos this]
  exact ⟨_, rfl⟩

theorem mod_wanderBody_wraps {R C : Nat} (hM : 12 * (R * C) < 2 ^ 60) (hR : 2 ≤ R) (hC : 0 < C) (step : I64)
    (v : Model.Lyra2mod.WanderVars) (hv : WrapsM R C v) :
    (Model.Lyra2mod.wanderBody .release (BitVec.ofNat 64 (2 ^ 63 + R)) (BitVec.ofNat 64 C) (BitVec.ofNat 64 (12 * C)) step v).Sat
      (BodyPost Model.Lyra2mod.WanderVars.row step (BitVec.ofNat 64 (2 ^ 63 + R) - 1) (WrapsM R C) v) := by
  obtain ⟨-, -, -, -, hR', -, -⟩ := bounds hM (show 0 < R by omega) hC
  obtain ⟨h1, h2, h3, h4⟩ := hv
  obtain ⟨M, hm⟩ := Rep.of_size h1
  unfold Model.Lyra2mod.wanderBody
  obtain ⟨x, hx⟩ := aget_and15 v.state v.index.toNat
  rw [hx, pure_bind]
  obtain ⟨y, hy⟩ := aget_and15 v.state x.toNat
  rw [hy, pure_bind, usub_release, pure_bind]
  dsimp only
  rw [mod_duplexRow, duplexRow_low]
  have ha := and_low (show 1 ≤ R by omega) hR' y
  refine Sat.bind (duplexRow_ok .release hM hm h2 ha h3 hC) fun x hx => ?_
  obtain ⟨s', m'⟩ := x
  dsimp only
  rw [iadd_release, pure_bind, isub_release, pure_bind]
  have hn := and_low (show 1 ≤ R by omega) hR' (v.row + step)
  by_cases h0 : (v.row + step) &&& (BitVec.ofNat 64 (2 ^ 63 + R) - 1) = 0
  · rw [if_pos h0]; exact .pure ⟨h0, hx.2.1, h3, hn, ha⟩
  · rw [if_neg h0]; exact .pure ⟨rfl, h0, hx.2.1, h3, hn, ha⟩

theorem mod_wander_wraps {R C : Nat} (hM : 12 * (R * C) < 2 ^ 60) (hR : 2 ≤ R) (hC : 0 < C) (T : U64)
    (v : Model.Lyra2mod.WanderVars) (h0 : v.row = 0) (hv : WrapsM R C v) :
    (Model.Lyra2mod.wander .release T (BitVec.ofNat 64 (2 ^ 63 + R)) (BitVec.ofNat 64 C) (BitVec.ofNat 64 (12 * C)) v).Sat
      (WrapsM R C) := by
  unfold Model.Lyra2mod.wander
  refine (forLoop_sat (fun _ v => v.row = 0 ∧ WrapsM R C v) 1 _ _ ⟨h0, hv⟩ fun j v _ hv => ?_).mono fun _ h => h.2
  have hstep : ∃ st, Model.Lyra2mod.wanderStep .release (BitVec.ofNat 64 (2 ^ 63 + R)) (1 + j) = pure st := by
    unfold Model.Lyra2mod.wanderStep
    rw [isub_release, pure_bind]
    split
    · exact ⟨_, rfl⟩
    · exact ⟨_, rfl⟩
  obtain ⟨st, hst⟩ := hstep
  rw [hst, pure_bind]
  exact pass_sat Model.Lyra2mod.WanderVars.row st _ (WrapsM R C) (fun v h => mod_wanderBody_wraps hM hR hC st v h) v hv.1 hv.2

theorem lyra2mod_wraps (k T : U64) (pwd salt : List U8) {R C : Nat} (hT : 1 ≤ T.toNat) (hk : k.toNat ≤ 96) (hR : 2 ≤ R)
    (hM : 12 * (R * C) < 2 ^ 60) (hI : 8 * nBlocks (pwd.length + salt.length) ≤ 12 * (R * C)) :
    ∃ out, Model.Lyra2mod.lyra2mod .release k pwd salt T (BitVec.ofNat 64 (2 ^ 63 + R)) (BitVec.ofNat 64 C) = pure out := by
  have hC : 0 < C := by
    by_contra hc
    have : C = 0 := by omega
    subst this
    unfold nBlocks at hI
    omega
  obtain ⟨-, -, h12, hC', hR', -, -⟩ := bounds hM (show 0 < R by omega) hC
  have hI' : pwd.length + salt.length + 48 < 2 ^ 63 := by unfold nBlocks at hI; omega
  suffices h : (Model.Lyra2mod.lyra2mod .release k pwd salt T (BitVec.ofNat 64 (2 ^ 63 + R)) (BitVec.ofNat 64 C)).Sat
      (fun _ => True) by
    obtain ⟨out, h, -⟩ := h; exact ⟨out, h⟩
  rw [lyra2mod_front, if_neg (by omega), if_neg (by rw [toNat_ofNat64 (by omega)]; omega)]
  unfold front
  rw [allocMatrix_wraps hM]
  simp only [pure_bind, bind_assoc]
  rw [nBlocksInput_ok .release hI', pure_bind]
  refine Sat.bind (writeInput_ok .release k T _ _ pwd salt hM hI) fun m hm => ?_
  rw [absorbInput_ok hm hI (by unfold nBlocks; omega), pure_bind]
  obtain ⟨M0, hM0⟩ := Rep.of_size hm.1
  refine Sat.bind (squeezeRow0_ok .release hM hM0 (by omega) hC) fun x hx => ?_
  obtain ⟨s1, m1⟩ := x
  obtain ⟨-, h2⟩ := hx
  dsimp only at h2 ⊢
  refine Sat.bind (duplexRow1_ok .release hM h2 (by omega) hC) fun x hx => ?_
  obtain ⟨s2, m2⟩ := x
  obtain ⟨-, h4⟩ := hx
  dsimp only at h4 ⊢
  rw [setupRows_wraps hR', pure_bind]
  refine Sat.bind (mod_wander_wraps hM hR hC T _ rfl ⟨h4.1, ?_, ?_, ?_⟩) fun w hw => ?_
  · show 1 % 2 ^ 63 < R; omega
  · show 0 % 2 ^ 63 < R; omega
  · show 0 % 2 ^ 63 < R; omega
  · obtain ⟨out, h⟩ := wrapUp_wraps (v := ⟨w.state, w.m, w.prev, w.row, w.rowa⟩) hk hM hC hw
    rw [BitVec.ofNat_toNat, BitVec.setWidth_eq] at h
    rw [mod_wrapUp, h]
    exact .pure trivial

end Proofs.Lyra2

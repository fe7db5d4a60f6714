import Verif.Proofs.Lyra2modWrap
import Verif.Proofs.Outcome
import Verif.Proofs.Why

/-! The outcome of calls with `n_rows >= 2^63` without overflow checks. -/

namespace Proofs.Lyra2
open Rust Rust.Res Model.Utils Model.Lyra2 Spec Spec.Lyra2 Proofs.Sponge

/-- Whatever the parameters: before the wandering phase starts, the input and two rows have fitted into the matrix. -/
theorem front_fits (p : Profile) (k T R C : U64) (pwd salt : List U8) :
    (front p k pwd salt T R C).Post (fun _ => (R * (12#64 * C)).toNat < 2 ^ 60 ∧
      8 * nBlocks (pwd.length + salt.length) ≤ (R * (12#64 * C)).toNat ∧ 24 * C.toNat ≤ (R * (12#64 * C)).toNat) := by
  unfold front
  refine Post.bind (allocMatrix_post p R C) fun x hx => ?_
  obtain ⟨l, m⟩ := x
  obtain ⟨rfl, -, hsize, hlt, -⟩ := hx
  dsimp only at hsize hlt ⊢
  rw [← hsize]
  refine Post.bind (nBlocksInput_post _ _ _) fun n hn => ?_
  refine Post.bind (writeInput_post _ _ _ _ _ _ _ _ _) fun m1 h1 => ?_
  obtain ⟨hs1, hi1, hi2⟩ := h1
  have hin := input_bound hlt hi1 hn hi2
  refine Post.triv (absorbInput_post _ _ _) fun s => ?_
  refine Post.bind (squeezeRow0_post p C s m1 (by omega)) fun x hx => ?_
  obtain ⟨s2, m2⟩ := x
  obtain ⟨hs2, h12⟩ := hx
  dsimp only at hs2 ⊢
  refine Post.bind (duplexRow1_post _ _ _ _ _) fun x hx => ?_
  obtain ⟨s3, m3⟩ := x
  obtain ⟨hs3, hrow1⟩ := hx
  dsimp only at hs3 hrow1 ⊢
  refine Post.triv ((setupRows_post _ _ _ _ _ _).mono fun _ _ => trivial) fun x => ?_
  refine .pure ⟨hlt, hin, ?_⟩
  rw [hs1] at h12
  rcases Nat.eq_zero_or_pos C.toNat with hC | hC
  · omega
  have e12 : (12#64 * C) = BitVec.ofNat 64 (12 * C.toNat) := by
    rw [BitVec.ofNat_mul]; simp
  have hlast := lastIdx (R := 1) (r := 1) hC (by omega) (by omega) (le_refl _)
  rw [show BitVec.ofNat 64 C.toNat = C by simp, BitVec.one_mul] at hlast
  have := hrow1 hC
  rw [e12, hs2, hs1] at this
  omega

theorem lyra2_fits (p : Profile) (k T R C : U64) (pwd salt : List U8) {out : List U8}
    (h : lyra2 p k pwd salt T R C = pure out ∨ Model.Lyra2mod.lyra2mod p k pwd salt T R C = pure out) :
    (R * (12#64 * C)).toNat < 2 ^ 60 ∧
      8 * nBlocks (pwd.length + salt.length) ≤ (R * (12#64 * C)).toNat ∧ 24 * C.toNat ≤ (R * (12#64 * C)).toNat := by
  have hr : RunPost p k pwd.length salt.length T R C out := h.elim (fun h => (lyra2_post p k T R C pwd salt).of_eq_pure h)
    (fun h => (lyra2mod_post p k T R C pwd salt).of_eq_pure h)
  have hf := front_fits p k T R C pwd salt
  rcases hf with ⟨e, he⟩ | ⟨x, -, hx⟩
  · obtain ⟨h1, h2⟩ := lyra2_throws hr.1 hr.2.1 he
    rw [h1, h2] at h
    rcases h with h | h <;> cases h
  · exact hx

/-- Without overflow checks and after the allocation, the part before the wandering phase panics for one reason only. -/
theorem front_bounds {k T R C : U64} {pwd salt : List U8} (h : ¬ ((R * (12#64 * C)).toInt < 0 ∨ isizeMax < 8 * (R * (12#64 * C)).toInt))
    (hp : (front .release k pwd salt T R C).Panics) : front .release k pwd salt T R C = throw .bounds := by
  obtain ⟨e, he⟩ := hp
  have hw : Why .release False (front .release k pwd salt T R C) := by
    unfold front
    rw [allocMatrix_release, if_neg h, pure_bind]
    why
    · apply why_nBlocksInput
    · apply why_writeInput
    · apply why_absorbInput
    · apply why_squeezeRow0
    · apply why_duplexRow1
    · apply why_setupRows
  rw [he]
  rcases hw e he with h | h | h
  · rw [h]
  · exact absurd h.2 (by simp)
  · exact h.2.elim

theorem wrapUp_wraps' {k : U64} {R C : Nat} (hM : 12 * (R * C) < 2 ^ 60) (hC : 0 < C) {v : WanderVars} (hv : Wraps R C v) :
    ∃ s, wrapUp .release k (BitVec.ofNat 64 (12 * C)) v = Model.Lyra2.squeeze .release s k := by
  obtain ⟨M, hm⟩ := Rep.of_size hv.1
  have := absorb_block_ok hm hv.2.2.2 hC v.state .release hM
  unfold wrapUp
  rw [imul_release, pure_bind, mul_low]
  rw [imul_release, pure_bind] at this
  unfold low
  rw [← bind_assoc, this, pure_bind]
  exact ⟨_, rfl⟩

/-- `2^63 + R` rows with `R >= 2`: the call comes to the point where it squeezes the key. -/
theorem wraps_squeeze (k T : U64) (pwd salt : List U8) {R C : Nat} (hT : 1 ≤ T.toNat) (hR : 2 ≤ R)
    (hM : 12 * (R * C) < 2 ^ 60) (hI : 8 * nBlocks (pwd.length + salt.length) ≤ 12 * (R * C)) :
    (∃ s, lyra2 .release k pwd salt T (BitVec.ofNat 64 (2 ^ 63 + R)) (BitVec.ofNat 64 C) = Model.Lyra2.squeeze .release s k) ∧
      ∃ s, Model.Lyra2mod.lyra2mod .release k pwd salt T (BitVec.ofNat 64 (2 ^ 63 + R)) (BitVec.ofNat 64 C) = Model.Lyra2.squeeze .release s k := by
  have hC : 0 < C := by
    by_contra hc
    have : C = 0 := by omega
    subst this
    unfold nBlocks at hI
    omega
  obtain ⟨-, -, h12, hC', hR', -, -⟩ := bounds hM (show 0 < R by omega) hC
  have hI' : pwd.length + salt.length + 48 < 2 ^ 63 := by unfold nBlocks at hI; omega
  have hn : (BitVec.ofNat 64 (2 ^ 63 + R)).toNat = 2 ^ 63 + R := toNat_ofNat64 (by omega)
  have hf : ∃ s m, m.size = 12 * (R * C) ∧ front .release k pwd salt T (BitVec.ofNat 64 (2 ^ 63 + R)) (BitVec.ofNat 64 C) =
      pure (BitVec.ofNat 64 (12 * C), s, m, SetupVars.start) := by
    unfold front
    rw [allocMatrix_wraps hM]
    simp only [pure_bind]
    rw [nBlocksInput_ok .release hI', pure_bind]
    obtain ⟨m, hm0, hm⟩ := writeInput_ok .release k T (BitVec.ofNat 64 (2 ^ 63 + R)) (BitVec.ofNat 64 C) pwd salt hM hI
    rw [hm0, pure_bind, absorbInput_ok hm hI (by unfold nBlocks; omega), pure_bind]
    obtain ⟨M0, hM0⟩ := Rep.of_size hm.1
    obtain ⟨⟨s1, m1⟩, e1, -, h2⟩ := squeezeRow0_ok .release hM hM0 (show 0 < R by omega) hC (s := _)
    rw [e1, pure_bind]
    obtain ⟨⟨s2, m2⟩, e2, -, h4⟩ := duplexRow1_ok .release hM h2 (show 1 < R by omega) hC (s := _)
    rw [e2, pure_bind, setupRows_wraps hR', pure_bind]
    exact ⟨s2, m2, h4.1, rfl⟩
  obtain ⟨s, m, hm, hf⟩ := hf
  have hv : 1 % 2 ^ 63 < R ∧ 0 % 2 ^ 63 < R := by omega
  constructor
  · rw [lyra2_front, if_neg (by omega), if_neg (by omega), hf]
    simp only [pure_bind]
    obtain ⟨w, h1, h2⟩ := wander_wraps hM hR hC T ⟨s, m, SetupVars.start.prev, 0, SetupVars.start.rowa⟩ rfl ⟨hm, hv.1, hv.2, hv.2⟩
    rw [h1, pure_bind]
    exact wrapUp_wraps' hM hC h2
  · rw [lyra2mod_front, if_neg (by omega), if_neg (by omega), hf]
    simp only [pure_bind]
    obtain ⟨w, h1, h2⟩ := mod_wander_wraps hM hR hC T ⟨s, m, SetupVars.start.prev, 0, SetupVars.start.rowa, 0⟩ rfl ⟨hm, hv.1, hv.2, hv.2⟩
    rw [h1, pure_bind, mod_wrapUp]
    exact wrapUp_wraps' (v := ⟨w.state, w.m, w.prev, w.row, w.rowa⟩) hM hC h2

/-- The number of words that are allocated, if there are less than `2^64`. -/
theorem words_wraps {R C : Nat} (h : 12 * (R * C) < 2 ^ 64) :
    (BitVec.ofNat 64 (2 ^ 63 + R) * (12#64 * BitVec.ofNat 64 C)).toNat = 12 * (R * C) := by
  rw [show (12#64 : BitVec 64) = BitVec.ofNat 64 12 from rfl, ← BitVec.ofNat_mul, ← BitVec.ofNat_mul, BitVec.toNat_ofNat,
    show (2 ^ 63 + R) * (12 * C) = 12 * (R * C) + 2 ^ 64 * (6 * C) by ring, Nat.add_mul_mod_self_left, Nat.mod_eq_of_lt h]

end Proofs.Lyra2

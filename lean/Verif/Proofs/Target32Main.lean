import Verif.Proofs.Target32Post

/-! Calls with 32-bit `usize` that return. -/

namespace Proofs.Target
open Rust Rust.Res Model.Target Spec Spec.Lyra2 Proofs.Sponge Proofs.Lyra2
open Model.Lyra2 (State Matrix SetupVars WanderVars)

/-- Wrap-up up to the squeeze. -/
def absorbLast (u : Nat) (p : Profile) (l : I64) (v : WanderVars) : Res State := do
  let at_ ← imul p v.rowa l
  let right ← splitRight v.m (usz u at_)
  Model.Lyra2.absorb_block v.state right

theorem wrapUp_eq (u : Nat) (p : Profile) (k : U64) (l : I64) (v : WanderVars) :
    wrapUp u p k l v = (absorbLast u p l v >>= fun s => Model.Target.squeeze u p s k) := by
  unfold wrapUp absorbLast
  simp only [bind_assoc]

theorem absorbLast_ref (p : Profile) (l : I64) (v : WanderVars) (hm : v.m.size < 2 ^ 32) :
    Ref (absorbLast 64 p l v) (absorbLast 32 p l v) (fun a b => a = b) := by
  unfold absorbLast
  refine Ref.bind (.refl _) fun a _ h => ?_; subst h
  rw [usz_64]
  refine Ref.bind (splitRight_ref hm _) fun r _ h => ?_; subst h
  exact .refl _

theorem absorbLast_ok (p : Profile) {R C : Nat} (hM : 12 * (R * C) < 2 ^ 60) (hC : 0 < C) {v : WanderVars} {M : Mem} {r : Nat}
    (hm : Rep R C v.m M) (hr : r < R) (ha : v.rowa = BitVec.ofNat 64 r) :
    absorbLast 64 p (BitVec.ofNat 64 (12 * C)) v = pure (f (xorRate v.state (M r 0))) := by
  unfold absorbLast
  simp only [usz_64]
  rw [ha]
  exact absorb_block_ok hm hr hC v.state p hM

/-- The call up to the squeeze: with the parameters accepted by a 32-bit target, both targets reach the same sponge state. -/
theorem lyra2_32 (p : Profile) (k T R C : U64) (pwd salt : List U8)
    (h : Domain32 pwd.length salt.length T.toNat R.toNat C.toNat) :
    ∃ s : State, lyra2 32 p k pwd salt T R C = Model.Target.squeeze 32 p s k ∧
      Model.Lyra2.lyra2 p k pwd salt T R C = Model.Lyra2.squeeze p s k := by
  obtain ⟨hT, hR, hmem, hin⟩ := h
  have hC : 0 < C.toNat := by
    by_contra hc
    have : C.toNat = 0 := by omega
    rw [this] at hin
    unfold nBlocks at hin
    omega
  have hM : 12 * (R.toNat * C.toNat) < 2 ^ 60 := by omega
  have hfront := front_ok p k T pwd salt hR hM hin
  rw [BitVec.ofNat_toNat, BitVec.ofNat_toNat, BitVec.setWidth_eq, BitVec.setWidth_eq] at hfront
  obtain ⟨⟨l, s, m, v⟩, e1, h1, ⟨h2, h3⟩, h4⟩ := hfront
  dsimp only at h1 h2 h3 h4
  subst h1 h4
  have hw := wander_ok p hM hR hC T (v := ⟨s, m, (setupVars R.toNat).prev, 0, (setupVars R.toNat).rowa⟩)
    (V := ⟨s, _, R.toNat - 1, setupStar R.toNat, 0⟩)
    ⟨rfl, h3, rfl, by show R.toNat - 1 < R.toNat; omega, rfl, rfl, by
      have := setupStar_lt (show 2 ≤ R.toNat by omega); show setupStar R.toNat < R.toNat; omega⟩
  rw [BitVec.ofNat_toNat, BitVec.ofNat_toNat, BitVec.setWidth_eq, BitVec.setWidth_eq] at hw
  obtain ⟨w, e2, hw⟩ := hw
  have e3 := absorbLast_ok p hM hC hw.m hw.rowa_lt hw.rowa
  generalize hst : f _ = st at e3
  refine ⟨st, ?_, ?_⟩
  rotate_right
  · rw [Lyra2.lyra2_front, if_neg (by omega), if_neg (by omega), e1, pure_bind]
    dsimp only
    rw [e2, pure_bind, ← wrapUp_64, wrapUp_eq, e3, pure_bind, squeeze_64]
  · have f1 := front_ref p k T pwd salt hR hmem hin
    rw [BitVec.ofNat_toNat, BitVec.ofNat_toNat, BitVec.setWidth_eq, BitVec.setWidth_eq] at f1
    obtain ⟨_, g1, rfl, -⟩ := f1 _ e1
    obtain ⟨_, g2, rfl, -, -⟩ := wander_ref (L := 12 * (R.toNat * C.toNat)) (by omega) p T R C _ _ (by rfl) h3.1 _ e2
    obtain ⟨_, g3, rfl⟩ := absorbLast_ref p _ w (by rw [hw.m.1]; omega) _ e3
    rw [lyra2_front, if_neg (by omega), if_neg (by omega), g1, pure_bind]
    dsimp only
    rw [g2, pure_bind, wrapUp_eq, g3, pure_bind]

theorem lyra2mod_32 (p : Profile) (k T R C : U64) (pwd salt : List U8)
    (h : Domain32 pwd.length salt.length T.toNat R.toNat C.toNat) :
    ∃ s : State, lyra2mod 32 p k pwd salt T R C = Model.Target.squeeze 32 p s k ∧
      Model.Lyra2mod.lyra2mod p k pwd salt T R C = Model.Lyra2.squeeze p s k := by
  obtain ⟨hT, hR, hmem, hin⟩ := h
  have hC : 0 < C.toNat := by
    by_contra hc
    have : C.toNat = 0 := by omega
    rw [this] at hin
    unfold nBlocks at hin
    omega
  have hM : 12 * (R.toNat * C.toNat) < 2 ^ 60 := by omega
  have hfront := front_ok p k T pwd salt hR hM hin
  rw [BitVec.ofNat_toNat, BitVec.ofNat_toNat, BitVec.setWidth_eq, BitVec.setWidth_eq] at hfront
  obtain ⟨⟨l, s, m, v⟩, e1, h1, ⟨h2, h3⟩, h4⟩ := hfront
  dsimp only at h1 h2 h3 h4
  subst h1 h4
  have hw := mod_wander_ok p hM hR hC T (v := ⟨s, m, (setupVars R.toNat).prev, 0, (setupVars R.toNat).rowa, 0⟩)
    (V := ⟨s, _, R.toNat - 1, setupStar R.toNat, 0⟩)
    ⟨rfl, h3, rfl, by show R.toNat - 1 < R.toNat; omega, rfl, rfl, by
      have := setupStar_lt (show 2 ≤ R.toNat by omega); show setupStar R.toNat < R.toNat; omega, rfl⟩
  rw [BitVec.ofNat_toNat, BitVec.ofNat_toNat, BitVec.setWidth_eq, BitVec.setWidth_eq] at hw
  obtain ⟨w, e2, hw⟩ := hw
  have e3 := absorbLast_ok p hM hC (v := ⟨w.state, w.m, w.prev, w.row, w.rowa⟩) hw.m hw.rowa_lt hw.rowa
  generalize hst : f _ = st at e3
  refine ⟨st, ?_, ?_⟩
  rotate_right
  · rw [Lyra2.lyra2mod_front, if_neg (by omega), if_neg (by omega), e1, pure_bind]
    dsimp only
    rw [e2, pure_bind, mod_wrapUp, ← wrapUp_64, wrapUp_eq, e3, pure_bind, squeeze_64]
  · have f1 := front_ref p k T pwd salt hR hmem hin
    rw [BitVec.ofNat_toNat, BitVec.ofNat_toNat, BitVec.setWidth_eq, BitVec.setWidth_eq] at f1
    obtain ⟨_, g1, rfl, -⟩ := f1 _ e1
    obtain ⟨_, g2, rfl, -, -⟩ := modWander_ref (L := 12 * (R.toNat * C.toNat)) (by omega) p T R C _ _ (by rfl) h3.1 _ e2
    obtain ⟨_, g3, rfl⟩ := absorbLast_ref p _ ⟨w.state, w.m, w.prev, w.row, w.rowa⟩ (by show w.m.size < _; rw [hw.m.1]; omega) _ e3
    rw [lyra2mod_front, if_neg (by omega), if_neg (by omega), g1, pure_bind]
    dsimp only
    rw [g2, pure_bind, wrapUp_eq, g3, pure_bind]

end Proofs.Target

import Verif.Props.Lyra2
import Verif.Proofs.Lyra2Wrap

/-! Property C11: can a call return after working on a matrix of the wrong size? -/

namespace Props
open Rust Rust.Res Spec Model.Lyra2

/-- **C11** (i) With overflow checks, or for `n_rows < 2^63`: a call that returns has allocated `n_rows * n_cols` cells. -/
theorem C11_no_wrap (p : Profile) (k : U64) (pwd salt : List U8) (T R C : U64) (hp : p = .debug ∨ R.toNat < 2 ^ 63)
    (out : List U8) (h : (lyra2 p k pwd salt T R C).Returns out) :
    ∃ m, (allocMatrix p R C).Returns (rowLen C, m) ∧ m.size = 12 * (R.toNat * C.toNat) := by
  obtain ⟨-, hR, -, -, hd⟩ := Post.of_eq_pure (Proofs.Lyra2.lyra2_post p k T R C pwd salt) h
  have hd := hd hp
  have hC := Proofs.Lyra2.Domain.cols hd
  have := Proofs.Lyra2.allocMatrix_ok p (R := R.toNat) (C := C.toNat) (by omega) (by have := hd.memory; omega) hC
  rw [ofNat_toNat64, ofNat_toNat64] at this
  exact ⟨_, this, by simp⟩

/-- **C11** (ii) Without overflow checks the claim fails for `n_rows >= 2^63`: `n_rows = 2^63 + R'` returns for all
parameters with which `R'` rows would be accepted, having allocated `R' * n_cols` cells. -/
theorem C11_release_wraps (k : U64) (pwd salt : List U8) (T R C : U64) (R' : Nat) (hR : R.toNat = 2 ^ 63 + R')
    (h2 : 2 ≤ R') (hT : 1 ≤ T.toNat) (hk : k.toNat ≤ 96) (hmem : 96 * (R' * C.toNat) ≤ isizeMax)
    (hin : 8 * ((pwd.length + salt.length + 48) / 64 + 1) ≤ 12 * (R' * C.toNat)) :
    (∃ out, (lyra2 .release k pwd salt T R C).Returns out ∧ out.length = k.toNat) ∧
      ∃ m, (allocMatrix .release R C).Returns (rowLen C, m) ∧ m.size = 12 * (R' * C.toNat) := by
  have hM : 12 * (R' * C.toNat) < 2 ^ 60 := by unfold isizeMax at hmem; omega
  have e : BitVec.ofNat 64 (2 ^ 63 + R') = R := by rw [← hR, ofNat_toNat64]
  have h1 := Proofs.Lyra2.lyra2_wraps k T pwd salt hT hk h2 hM hin
  have h3 := Proofs.Lyra2.allocMatrix_wraps (R := R') (C := C.toNat) hM
  rw [e, ofNat_toNat64] at h1 h3
  obtain ⟨out, hout⟩ := h1
  exact ⟨⟨out, hout, (C03_output_length _ _ _ _ _ _ _ _ hout).1⟩, _, h3, by simp⟩

/-- **C11** (iii) The unrestricted claim is false. -/
theorem C11_release_counterexample :
    ¬ ∀ (k : U64) (pwd salt : List U8) (T R C : U64) (out : List U8), (lyra2 .release k pwd salt T R C).Returns out →
      ∃ m, (allocMatrix .release R C).Returns (rowLen C, m) ∧ m.size = 12 * (R.toNat * C.toNat) := by
  intro h
  obtain ⟨⟨out, h1, -⟩, m, h2, h3⟩ := C11_release_wraps 32 [] [] 1 (BitVec.ofNat 64 (2 ^ 63 + 4)) 1 4 rfl (by decide) (by decide)
    (by decide) (by unfold isizeMax; decide) (by decide)
  obtain ⟨m', h4, h5⟩ := h _ _ _ _ _ _ _ h1
  have := Res.pure_inj (h2.symm.trans h4)
  have : m = m' := congrArg Prod.snd this
  subst this
  rw [h3] at h5
  exact absurd h5 (by decide)

/-- `n_rows = 2^63 + 4`, `n_cols = 1`: 48 words instead of more than `2^66`. -/
example : ∃ out, (lyra2 .release 32 [1, 2, 3, 4, 5, 6, 7, 8] [] 1 (BitVec.ofNat 64 (2 ^ 63 + 4)) 1).Returns out ∧ out.length = 32 :=
  (C11_release_wraps 32 [1, 2, 3, 4, 5, 6, 7, 8] [] 1 (BitVec.ofNat 64 (2 ^ 63 + 4)) 1 4 rfl (by decide) (by decide) (by decide)
    (by unfold isizeMax; decide) (by decide)).1

end Props

import Verif.Props.RowsMod
import Verif.Props.Wrap
import Verif.Proofs.Lyra2modWrap

/-! Property C51: `lyra2mod` for row counts that are not powers of two, and for huge row counts. -/

namespace Props
open Rust Rust.Res Spec Spec.Lyra2
open Model.Lyra2mod (WanderVars wanderStep wanderBody lyra2mod)

/-! ## C51 -/

/-- **C51** (i) The row operations of `lyra2mod` are those of `lyra2` (so C40 and C45 hold for them). -/
theorem C51_same_row_operations :
    Model.Lyra2mod.duplexRow = Model.Lyra2.duplexRow ∧ Model.Lyra2mod.duplexRowSetup = Model.Lyra2.duplexRowSetup ∧
      Model.Lyra2mod.duplexRow1 = Model.Lyra2.duplexRow1 ∧ Model.Lyra2mod.squeezeRow0 = Model.Lyra2.squeezeRow0 :=
  ⟨Proofs.Lyra2.mod_duplexRow, Proofs.Lyra2.mod_duplexRowSetup, Proofs.Lyra2.mod_duplexRow1, Proofs.Lyra2.mod_squeezeRow0⟩

/-- **C51** (ii) An even pass computes exactly the rows `r` with `r AND (n_rows - 1) = r` (that the others are never written is
`C14_untouched_mod`). -/
theorem C51_even_pass_rows (p : Profile) (R C : U64) (hs : Shape R C) (τ : Nat) (hτ : τ % 2 = 0)
    (v : WanderVars) (hv : PassStartMod R C v) :
    ∃ step vs w, (wanderStep p R τ).Returns step ∧ Rounds (wanderBody p R C (rowLen C) step) (v :: vs) w ∧
      ∀ r, r ∈ (v :: vs).map (fun u => u.row.toNat) ↔ r &&& (R.toNat - 1) = r := by
  obtain ⟨step, vs, w, h1, h2, h3⟩ := mod_pass_rows p hs τ hv
  refine ⟨step, vs, w, h1, h2, fun r => ?_⟩
  rw [h3]
  exact ⟨Proofs.Lyra2.mask_submask τ r, Proofs.Lyra2.even_visits (by have := hs.rows; omega) τ hτ r⟩

/-- **C51** (iii) With `n_rows = 2^j + 1` an odd pass performs a single row operation. -/
theorem C51_single_row (p : Profile) (R C : U64) (hs : Shape R C) (j : Nat) (hR : R.toNat = 2 ^ j + 1) (τ : Nat)
    (hτ : τ % 2 = 1) (v : WanderVars) (hv : PassStartMod R C v) :
    ∃ step w, (wanderStep p R τ).Returns step ∧ Rounds (wanderBody p R C (rowLen C) step) [v] w := by
  obtain ⟨step, vs, w, h1, h2, h3⟩ := mod_pass_rows p hs τ hv
  have hj : 1 ≤ j := by
    by_contra hc
    have : j = 0 := by omega
    subst this
    have := hs.rows
    omega
  rw [hR, mask_two_pow_succ hj hτ] at h3
  have hl := congrArg List.length h3
  rw [List.length_map, List.length_cons, List.length_singleton] at hl
  have : vs = [] := List.length_eq_zero_iff.mp (by omega)
  subst this
  exact ⟨step, w, h1, h2⟩

/-- **C51** (iv) Without overflow checks `n_rows = 2^63 + R'` returns for all parameters with which `R'` rows would be accepted,
having allocated `R' * n_cols` cells. -/
theorem C51_release_wraps (k : U64) (pwd salt : List U8) (T R C : U64) (R' : Nat) (hR : R.toNat = 2 ^ 63 + R')
    (h2 : 2 ≤ R') (hT : 1 ≤ T.toNat) (hk : k.toNat ≤ 96) (hmem : 96 * (R' * C.toNat) ≤ isizeMax)
    (hin : 8 * ((pwd.length + salt.length + 48) / 64 + 1) ≤ 12 * (R' * C.toNat)) :
    (∃ out, (lyra2mod .release k pwd salt T R C).Returns out ∧ out.length = k.toNat) ∧
      ∃ m, (Model.Lyra2mod.allocMatrix .release R C).Returns (rowLen C, m) ∧ m.size = 12 * (R' * C.toNat) := by
  have hM : 12 * (R' * C.toNat) < 2 ^ 60 := by unfold isizeMax at hmem; omega
  have e : BitVec.ofNat 64 (2 ^ 63 + R') = R := by rw [← hR, ofNat_toNat64]
  have h1 := Proofs.Lyra2.lyra2mod_wraps k T pwd salt hT hk h2 hM hin
  have h3 := Proofs.Lyra2.allocMatrix_wraps (R := R') (C := C.toNat) hM
  rw [e, ofNat_toNat64] at h1 h3
  obtain ⟨out, hout⟩ := h1
  rw [← Proofs.Lyra2.mod_alloc] at h3
  exact ⟨⟨out, hout, ((C19_lyra2mod_domain k T R C pwd salt).2.2.2 _ _ hout).1⟩, _, h3, by simp⟩

/-- With 6 rows an even pass computes rows 0, 5, 4, 1; 9 rows are `2^3 + 1`; `2^63 + 4` rows run on 48 words. -/
example : Shape 6 1 ∧ Order.mask 6 2 = [0, 5, 4, 1] ∧ Shape 9 2 ∧ (9 : U64).toNat = 2 ^ 3 + 1 :=
  ⟨⟨by decide, by decide, by unfold isizeMax; decide⟩, by decide, ⟨by decide, by decide, by unfold isizeMax; decide⟩, rfl⟩

example : ∃ out, (lyra2mod .release 32 [1, 2, 3, 4, 5, 6, 7, 8] [] 1 (BitVec.ofNat 64 (2 ^ 63 + 4)) 1).Returns out ∧ out.length = 32 :=
  (C51_release_wraps 32 [1, 2, 3, 4, 5, 6, 7, 8] [] 1 (BitVec.ofNat 64 (2 ^ 63 + 4)) 1 4 rfl (by decide) (by decide) (by decide)
    (by unfold isizeMax; decide) (by decide)).1

end Props

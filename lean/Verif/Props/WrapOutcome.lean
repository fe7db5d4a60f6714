import Verif.Proofs.WrapOutcome
import Verif.Props.Outcome

/-! Property C57, continued: calls with `n_rows >= 2^63` in a build without overflow checks. -/

namespace Props
open Rust Rust.Res Spec Spec.Lyra2
open Model.Lyra2 (lyra2)
open Model.Lyra2mod (lyra2mod)

/-- Why a call with `n_rows = 2^63 + R'` panics in a build without overflow checks, as long as `R'` rows have less than `2^64` words;
`none` if it returns. The matrix has `R'` rows, and the setup loop is skipped, so that two rows are enough. -/
def wrappedFailure (k : U64) (pwdLen saltLen : Nat) (T : U64) (R' C : Nat) : Option Panic :=
  if T.toNat < 1 then some .explicit
  else if isizeMax < 8 * (12 * (R' * C)) then some .capacity
  else if R' < 2 ∨ 12 * (R' * C) < 8 * ((pwdLen + saltLen + 48) / 64 + 1) then some .bounds
  else if isizeMax < k.toNat then some .capacity
  else if 96 < k.toNat then some .bounds
  else none

/-- **C57** (v) The outcome of every call with `n_rows = 2^63 + R'`, `12 * R' * n_cols < 2^64`, in a build without overflow checks. -/
theorem C57_wrapped (k T R C : U64) (pwd salt : List U8) (R' : Nat) (hR : R.toNat = 2 ^ 63 + R') (hw : 12 * (R' * C.toNat) < 2 ^ 64) :
    match wrappedFailure k pwd.length salt.length T R' C.toNat with
    | some e => lyra2 .release k pwd salt T R C = throw e ∧ lyra2mod .release k pwd salt T R C = throw e
    | none => (∃ out, (lyra2 .release k pwd salt T R C).Returns out ∧ out.length = k.toNat) ∧
        ∃ out, (lyra2mod .release k pwd salt T R C).Returns out ∧ out.length = k.toNat := by
  have e : BitVec.ofNat 64 (2 ^ 63 + R') = R := by rw [← hR, ofNat_toNat64]
  have hwords := Proofs.Lyra2.words_wraps hw
  rw [e, ofNat_toNat64] at hwords
  by_cases hT : T.toNat < 1
  · rw [wrappedFailure, if_pos hT]
    exact C02_documented_panics .release k T R C pwd salt (.inl hT)
  have hcap : isizeMax < 8 * (12 * (R' * C.toNat)) ↔
      ((R * (12#64 * C)).toInt < 0 ∨ isizeMax < 8 * (R * (12#64 * C)).toInt) := by
    rw [BitVec.toInt_eq_toNat_cond, hwords]
    unfold isizeMax
    split <;> push_cast <;> omega
  by_cases hc : isizeMax < 8 * (12 * (R' * C.toNat))
  · rw [wrappedFailure, if_neg hT, if_pos hc]
    refine Proofs.Lyra2.lyra2_throws (by omega) (by omega) ?_
    unfold Proofs.Lyra2.front
    rw [Proofs.Lyra2.allocMatrix_release, if_pos (hcap.1 hc)]
    rfl
  have hM : 12 * (R' * C.toNat) < 2 ^ 60 := by unfold isizeMax at hc; omega
  by_cases hb : R' < 2 ∨ 12 * (R' * C.toNat) < 8 * ((pwd.length + salt.length + 48) / 64 + 1)
  · rw [wrappedFailure, if_neg hT, if_neg hc, if_pos hb]
    refine Proofs.Lyra2.lyra2_throws (by omega) (by omega) (Proofs.Lyra2.front_bounds (fun h => hc (hcap.2 h)) ?_)
    refine ((Proofs.Lyra2.front_fits .release k T R C pwd salt).mono fun _ hx => ?_).panics
    obtain ⟨-, h1, h2⟩ := hx
    rw [hwords] at h1 h2
    unfold nBlocks at h1
    rcases hb with hb | hb
    · rcases (show R' = 0 ∨ R' = 1 by omega) with h | h <;> subst h <;> omega
    · omega
  rw [not_or] at hb
  obtain ⟨⟨s1, h1⟩, s2, h2⟩ := Proofs.Lyra2.wraps_squeeze k T pwd salt (R := R') (C := C.toNat) (by omega) (by omega) hM
    (by unfold nBlocks; omega)
  rw [e, ofNat_toNat64] at h1 h2
  rw [wrappedFailure, if_neg hT, if_neg hc, if_neg (by omega)]
  by_cases hk : 96 < k.toNat
  · rw [h1, h2, Proofs.Lyra2.squeeze_throws _ _ hk, Proofs.Lyra2.squeeze_throws _ _ hk]
    split_ifs <;> exact ⟨rfl, rfl⟩
  · rw [if_neg (by unfold isizeMax; omega), if_neg hk]
    have hl := fun s => Proofs.Lyra2.squeeze_ok .release s (show k.toNat ≤ 96 by omega)
    simp only [ofNat_toNat64] at hl
    rw [hl] at h1 h2
    exact ⟨⟨_, h1, (C03_output_length _ _ _ _ _ _ _ _ h1).1⟩, _, h2, (runPost_length ((Proofs.Lyra2.lyra2mod_post _ _ _ _ _ _ _).of_eq_pure h2)).1⟩

/-- **C57** (vi) For all parameters, with and without overflow checks: a call that returns has had room for the padded input and for
two rows in the words that it has allocated (the product modulo `2^64`), less than `2^60` of them, and its key has at most one block. -/
theorem C57_fits (p : Profile) (k T R C : U64) (pwd salt : List U8) (out : List U8)
    (h : (lyra2 p k pwd salt T R C).Returns out ∨ (lyra2mod p k pwd salt T R C).Returns out) :
    let words := R.toNat * (12 * C.toNat) % 2 ^ 64
    words < 2 ^ 60 ∧ 8 * ((pwd.length + salt.length + 48) / 64 + 1) ≤ words ∧ 2 * (12 * C.toNat) ≤ words ∧
      1 ≤ T.toNat ∧ 3 ≤ R.toNat ∧ k.toNat ≤ 96 := by
  have hw : (R * (12#64 * C)).toNat = R.toNat * (12 * C.toNat) % 2 ^ 64 := by
    rw [BitVec.toNat_mul, BitVec.toNat_mul, show (12#64).toNat = 12 from rfl, Nat.mul_mod_mod]
  have hr : Proofs.Lyra2.RunPost p k pwd.length salt.length T R C out :=
    h.elim (fun h => (Proofs.Lyra2.lyra2_post p k T R C pwd salt).of_eq_pure h)
      (fun h => (Proofs.Lyra2.lyra2mod_post p k T R C pwd salt).of_eq_pure h)
  obtain ⟨h1, h2, h3⟩ := Proofs.Lyra2.lyra2_fits p k T R C pwd salt h
  rw [hw] at h1 h2 h3
  unfold nBlocks at h2
  exact ⟨h1, h2, by omega, hr.1, hr.2.1, hr.2.2.1⟩

/-- Each outcome of a call with `n_rows = 2^63 + R'`. -/
example :
    wrappedFailure 32 32 32 0 4 4 = some .explicit ∧ wrappedFailure 32 32 32 1 4 (2 ^ 56) = some .capacity ∧
      wrappedFailure 32 32 32 1 1 100 = some .bounds ∧ wrappedFailure 32 2000 0 1 4 4 = some .bounds ∧
      wrappedFailure (BitVec.ofNat 64 (2 ^ 63)) 32 32 1 4 4 = some .capacity ∧ wrappedFailure 97 32 32 1 4 4 = some .bounds ∧
      wrappedFailure 32 32 32 1 2 4 = none := by decide +kernel

/-- One row too few, and enough. -/
example : lyra2 .release 32 [1, 2] [3] 1 (BitVec.ofNat 64 (2 ^ 63 + 1)) 5 = throw .bounds :=
  (C57_wrapped 32 1 _ 5 [1, 2] [3] 1 rfl (by decide)).1
example : ∃ out, (lyra2mod .release 32 [1, 2] [3] 1 (BitVec.ofNat 64 (2 ^ 63 + 2)) 5).Returns out ∧ out.length = 32 :=
  (C57_wrapped 32 1 _ 5 [1, 2] [3] 2 rfl (by decide)).2

end Props

import Verif.Proofs.Outcome
import Verif.Proofs.Why
import Verif.Props.Lyra2

/-! Property C57: the outcome of every call, with the reason of a panic. -/

namespace Props
open Rust Rust.Res Spec Spec.Lyra2
open Model.Lyra2 (lyra2)
open Model.Lyra2mod (lyra2mod)

/-- `x` is a value of type `i64`. -/
def IsI64 (x : Int) : Prop := -2 ^ 63 ≤ x ∧ x < 2 ^ 63

instance (x : Int) : Decidable (IsI64 x) := inferInstanceAs (Decidable (_ ∧ _))

/-- Why a call panics, from its numeric arguments and the lengths of password and salt; `none` if it returns. `n_rows` and `n_cols` are
used as `i64`, that is, values from `2^63` on are negative (`toInt`). In this order: the documented checks; `12 * n_cols` and
`n_rows * (12 * n_cols)` in `i64`; the allocation of that many 8-byte words; the padded input written into the matrix, and row 0
(a negative number of columns gets this far only if the number of rows is negative too); the allocation of the key; a key of more
than one block. -/
def failure (k : U64) (pwdLen saltLen : Nat) (T R C : U64) : Option Panic :=
  let words : Int := R.toInt * (12 * C.toInt)
  if T.toNat < 1 ∨ R.toNat < 3 then some .explicit
  else if ¬ IsI64 (12 * C.toInt) ∨ ¬ IsI64 words then some .overflow
  else if words < 0 ∨ isizeMax < 8 * words then some .capacity
  else if C.toInt < 0 ∨ words < 8 * ((pwdLen + saltLen + 48) / 64 + 1) then some .bounds
  else if isizeMax < k.toNat then some .capacity
  else if 96 < k.toNat then some .bounds
  else none

/-- A call that returns `out`, or panics for the reason given. -/
def outcome (reason : Option Panic) (out : List U8) : Res (List U8) :=
  match reason with
  | some e => throw e
  | none => pure out

theorem toInt_nonneg {x : U64} (h : 0 ≤ x.toInt) : x.toInt = x.toNat := by
  rw [BitVec.toInt_eq_toNat_cond] at h ⊢
  have := x.isLt
  split at h <;> omega

/-- **C57** (i) No reason to panic: the conditions of C01. -/
theorem C57_none_iff (k T R C : U64) (a b : Nat) : failure k a b T R C = none ↔ Accepts k a b T R C := by
  unfold failure Accepts
  dsimp only
  have hk := k.isLt
  constructor
  · intro h
    split_ifs at h with h1 h2 h3 h4 h5 h6
    have hw : (0 : Int) < R.toInt * (12 * C.toInt) := by omega
    have hC : 0 < C.toInt := by
      rcases lt_or_eq_of_le (show 0 ≤ C.toInt by omega) with h | h
      · exact h
      · rw [← h] at hw; simp at hw
    have hR : 0 < R.toInt := by
      by_contra hc
      have : R.toInt * (12 * C.toInt) ≤ 0 := mul_nonpos_of_nonpos_of_nonneg (by omega) (by omega)
      omega
    have e : R.toInt * (12 * C.toInt) = ((12 * (R.toNat * C.toNat) : Nat) : Int) := by
      rw [toInt_nonneg (by omega), toInt_nonneg (by omega)]; push_cast; ring
    rw [e] at h3 h4
    exact ⟨by omega, by omega, by omega, by omega, by omega⟩
  · rintro ⟨h1, h2, h3, h4, h5⟩
    have hM : 12 * (R.toNat * C.toNat) < 2 ^ 60 := by unfold isizeMax at h4; omega
    have hC : 0 < C.toNat := by
      by_contra hc
      have : C.toNat = 0 := by omega
      rw [this] at h5
      omega
    have b1 : C.toNat ≤ R.toNat * C.toNat := Nat.le_mul_of_pos_left _ (by omega)
    have b2 : R.toNat ≤ R.toNat * C.toNat := Nat.le_mul_of_pos_right _ (by omega)
    have eC : C.toInt = C.toNat := by rw [BitVec.toInt_eq_toNat_cond, if_pos (by omega)]
    have eR : R.toInt = R.toNat := by rw [BitVec.toInt_eq_toNat_cond, if_pos (by omega)]
    have e : R.toInt * (12 * C.toInt) = ((12 * (R.toNat * C.toNat) : Nat) : Int) := by
      rw [eC, eR]; push_cast; ring
    rw [e, eC]
    unfold IsI64
    rw [if_neg (by omega), if_neg (by omega), if_neg (by omega), if_neg (by omega), if_neg (by unfold isizeMax; omega),
      if_neg (by omega)]

/-- **C57** (ii) The outcome of every call of `lyra2` and of `lyra2mod`: the key of the specification, or a panic for the reason
given by `failure`. In a build without overflow checks the same holds unless the reason is an overflow. (Password and salt together
have at most 2^62 bytes.) -/
theorem C57_outcome (p : Profile) (k T R C : U64) (pwd salt : List U8) (hl : pwd.length + salt.length ≤ 2 ^ 62)
    (h : p = .debug ∨ failure k pwd.length salt.length T R C ≠ some .overflow) :
    lyra2 p k pwd salt T R C =
        outcome (failure k pwd.length salt.length T R C) (masked k.toNat pwd salt T.toNat R.toNat C.toNat) ∧
      lyra2mod p k pwd salt T R C =
        outcome (failure k pwd.length salt.length T R C) (rev3Masked k.toNat pwd salt T.toNat R.toNat C.toNat) := by
  by_cases hA : Accepts k pwd.length salt.length T R C
  · rw [(C57_none_iff k T R C _ _).2 hA]
    exact ⟨C06_lyra2_result p k T R C pwd salt hA, C20_lyra2mod_result p k T R C pwd salt hA⟩
  have hn : failure k pwd.length salt.length T R C ≠ none := fun e => hA ((C57_none_iff k T R C _ _).1 e)
  generalize hf : failure k pwd.length salt.length T R C = r at h hn ⊢
  unfold failure at hf
  dsimp only at hf
  split_ifs at hf with h1 h2 h3 h4 h5 h6
  · subst hf; exact C02_documented_panics p k T R C pwd salt h1
  all_goals rw [not_or] at h1
  · subst hf
    rw [h.resolve_right (fun h => h rfl)]
    refine Proofs.Lyra2.lyra2_throws (by omega) (by omega) ?_
    unfold Proofs.Lyra2.front
    rw [Proofs.Lyra2.allocMatrix_overflow h2]
    rfl
  · subst hf
    refine Proofs.Lyra2.lyra2_throws (by omega) (by omega) ?_
    unfold Proofs.Lyra2.front
    rw [Proofs.Lyra2.allocMatrix_fits p h2, if_neg (by omega)]
    rfl
  · subst hf
    exact Proofs.Lyra2.lyra2_throws (by omega) (by omega)
      (Proofs.Lyra2.front_throws p k T R C pwd salt hl h2 (by omega) (by omega) (by
        unfold nBlocks; push_cast; exact h4))
  all_goals
    have hC : 0 ≤ C.toInt := by omega
    have hw : (0 : Int) < R.toInt * (12 * C.toInt) := by omega
    have hR : 0 < R.toInt := by
      by_contra hc
      have : R.toInt * (12 * C.toInt) ≤ 0 := mul_nonpos_of_nonpos_of_nonneg (by omega) (by omega)
      omega
    have e : R.toInt * (12 * C.toInt) = ((12 * (R.toNat * C.toNat) : Nat) : Int) := by
      rw [toInt_nonneg (by omega), toInt_nonneg (by omega)]; push_cast; ring
    rw [e] at h3 h4
  · have := Proofs.Lyra2.long_key p k T R C pwd salt (by omega) (by omega) (by unfold isizeMax at h5; omega) (by omega)
      (by unfold nBlocks; omega)
    rw [if_pos h5] at this
    subst hf
    exact this
  · have := Proofs.Lyra2.long_key p k T R C pwd salt (by omega) (by omega) h6 (by omega)
      (by unfold nBlocks; omega)
    rw [if_neg h5] at this
    subst hf
    exact this
  · exact absurd hf.symm hn

/-- The same without overflow checks, for `n_rows < 2^63`: an overflow is not noticed, the number of words allocated is the product
modulo `2^64`, read as an `i64`, and a row that does not fit is noticed later. -/
def releaseFailure (k : U64) (pwdLen saltLen : Nat) (T R C : U64) : Option Panic :=
  let words : Int := (R.toInt * (12 * C.toInt)).bmod (2 ^ 64)
  match failure k pwdLen saltLen T R C with
  | some .overflow => if words < 0 ∨ isizeMax < 8 * words then some .capacity else some .bounds
  | r => r

theorem words_toInt (R C : U64) : (R * (12#64 * C)).toInt = (R.toInt * (12 * C.toInt)).bmod (2 ^ 64) := by
  rw [BitVec.toInt_mul, BitVec.toInt_mul, show (12#64).toInt = 12 by decide, Int.mul_bmod_bmod]

/-- **C57** (iii) The outcome of every call with `n_rows < 2^63` in a build without overflow checks. -/
theorem C57_release (k T R C : U64) (pwd salt : List U8) (hl : pwd.length + salt.length ≤ 2 ^ 62) (hR : R.toNat < 2 ^ 63) :
    lyra2 .release k pwd salt T R C =
        outcome (releaseFailure k pwd.length salt.length T R C) (masked k.toNat pwd salt T.toNat R.toNat C.toNat) ∧
      lyra2mod .release k pwd salt T R C =
        outcome (releaseFailure k pwd.length salt.length T R C) (rev3Masked k.toNat pwd salt T.toNat R.toNat C.toNat) := by
  by_cases ho : failure k pwd.length salt.length T R C = some .overflow
  · have e : outcome (releaseFailure k pwd.length salt.length T R C) = fun _ =>
        throw (if (R * (12#64 * C)).toInt < 0 ∨ isizeMax < 8 * (R * (12#64 * C)).toInt then .capacity else .bounds) := by
      unfold releaseFailure
      rw [ho, words_toInt]
      dsimp only
      split <;> rfl
    rw [e]
    unfold failure at ho
    dsimp only at ho
    have h1 : ¬ (T.toNat < 1 ∨ R.toNat < 3) := fun h => by rw [if_pos h] at ho; simp at ho
    rw [if_neg h1] at ho
    have h2 : ¬ IsI64 (12 * C.toInt) ∨ ¬ IsI64 (R.toInt * (12 * C.toInt)) := by
      by_contra h
      rw [if_neg h] at ho
      split_ifs at ho <;> simp at ho
    refine Proofs.Lyra2.lyra2_throws (by omega) (by omega) (Proofs.Lyra2.front_release (by omega) hR fun h => ?_)
    have hC : 3 * C.toNat ≤ R.toNat * C.toNat := Nat.mul_le_mul_right _ (by omega)
    have eC : C.toInt = C.toNat := by rw [BitVec.toInt_eq_toNat_cond, if_pos (by omega)]
    have eR : R.toInt = R.toNat := by rw [BitVec.toInt_eq_toNat_cond, if_pos (by omega)]
    have e : R.toInt * (12 * C.toInt) = ((12 * (R.toNat * C.toNat) : Nat) : Int) := by
      rw [eC, eR]; push_cast; ring
    rw [e, eC] at h2
    unfold IsI64 at h2
    omega
  · have e : releaseFailure k pwd.length salt.length T R C = failure k pwd.length salt.length T R C := by
      unfold releaseFailure
      dsimp only
      split
      · rename_i h; exact absurd h ho
      · rfl
    rw [e]
    exact C57_outcome .release k T R C pwd salt hl (.inr ho)

/-- **C57** (iv) `lyra2::sum` and `lyra2mod::sum` fail for one reason only: an index out of bounds, for more than 743 bytes. -/
theorem C57_sum (p : Profile) (input : List U8) (hl : input.length ≤ 2 ^ 61) (h : 743 < input.length) :
    Model.Lyra2.sum p input = throw .bounds ∧ Model.Lyra2mod.sum p input = throw .bounds := by
  have e : failure 32 input.length input.length 1 4 4 = some .bounds := by
    unfold failure
    dsimp only
    rw [show (4 : U64).toInt = 4 by decide, show (4 : U64).toNat = 4 by decide, show (1 : U64).toNat = 1 by decide]
    rw [if_neg (by decide), if_neg (by decide), if_neg (by decide), if_pos (by right; omega)]
  have := C57_outcome p 32 1 4 4 input input (by omega) (by rw [e]; right; decide)
  rw [e] at this
  exact this

/-- Each of the four reasons, and none. `n_rows = n_cols = 2^64 - 1` are both `-1`: a matrix of twelve words is allocated. -/
example :
    failure 32 32 32 0 4 4 = some .explicit ∧ failure 32 32 32 1 (2 ^ 40) (2 ^ 40) = some .overflow ∧
      failure 32 32 32 1 4 (2 ^ 56) = some .capacity ∧ failure 32 32 32 1 4 (BitVec.ofNat 64 (2 ^ 64 - 1)) = some .capacity ∧
      failure 32 2000 0 1 4 4 = some .bounds ∧ failure 32 0 0 1 (BitVec.ofNat 64 (2 ^ 64 - 1)) (BitVec.ofNat 64 (2 ^ 64 - 1)) = some .bounds ∧
      failure (BitVec.ofNat 64 (2 ^ 63)) 32 32 1 4 4 = some .capacity ∧ failure 97 32 32 1 4 4 = some .bounds ∧
      failure 32 32 32 1 4 4 = none := by decide

/-- Overflows without overflow checks: `3 * 12 * 2^62` words are none modulo `2^64`, so that there is no place for the input,
`3 * 12 * 2^59` are more than can be allocated, and `5 * 12 * 2^61` are negative as an `i64`. -/
example :
    releaseFailure 32 32 32 1 3 (2 ^ 62) = some .bounds ∧ releaseFailure 32 32 32 1 3 (2 ^ 59) = some .capacity ∧
      releaseFailure 32 32 32 1 5 (2 ^ 61) = some .capacity ∧ releaseFailure 32 32 32 1 4 4 = none := by decide +kernel

end Props

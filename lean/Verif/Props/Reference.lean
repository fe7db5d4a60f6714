import Verif.Props.Rows

/-! Property C42: for other row counts than powers of two, `lyra2` is not the reference Lyra2. -/

namespace Props
open Rust Rust.Res Spec Spec.Lyra2 Model.Lyra2

/-- The reference visits every row in an even pass, for every number of rows. -/
theorem reference_even {R : Nat} (hR : 0 < R) {τ : Nat} (h : τ % 2 = 0) :
    Order.reference R τ = (List.range R).map fun i => (R - i) % R := by
  unfold Order.reference
  rw [Proofs.Lyra2.orbit_eq R R 0 hR le_rfl]
  · apply List.map_congr_left
    intro i hi
    rw [Proofs.Lyra2.modNext_even _ _ _ h, Proofs.Lyra2.mul_pred_mod (by have := List.mem_range.mp hi; omega) hR]
  · rw [Proofs.Lyra2.modNext_even _ _ _ h, Nat.mul_mod_right]
  · intro i h1 h2 h0
    rw [Proofs.Lyra2.modNext_even _ _ _ h, Proofs.Lyra2.mul_pred_mod (by omega) hR, Nat.mod_eq_of_lt (by omega)] at h0
    omega

theorem reference_even_mem {R : Nat} {τ : Nat} (h : τ % 2 = 0) {r : Nat} (hr : r < R) : r ∈ Order.reference R τ := by
  rw [reference_even (by omega) h, List.mem_map]
  by_cases h0 : r = 0
  · exact ⟨0, List.mem_range.mpr (by omega), by rw [Nat.sub_zero, Nat.mod_self, h0]⟩
  · exact ⟨R - r, List.mem_range.mpr (by omega), by rw [Nat.sub_sub_self (by omega), Nat.mod_eq_of_lt hr]⟩

/-- **C42** (i) For every number of rows that is not a power of two there is a row that every even pass of the reference
computes and no even pass of the code does. -/
theorem C42_row_missing (R C : U64) (hs : Shape R C) (hR : ∀ j, R.toNat ≠ 2 ^ j) :
    ∃ r < R.toNat, ∀ τ, τ % 2 = 0 → r ∈ Order.reference R.toNat τ ∧
      ∀ p v, PassStart R C v → ∃ step vs w, (wanderStep p R τ).Returns step ∧
        Rounds (wanderBody p R C (rowLen C) step) (v :: vs) w ∧ r ∉ (v :: vs).map (fun u => u.row.toNat) := by
  obtain ⟨r, hr, hne⟩ := C14_exists_untouched R hs.rows hR
  refine ⟨r, hr, fun τ hτ => ⟨reference_even_mem hτ hr, fun p v hv => ?_⟩⟩
  obtain ⟨step, vs, w, h1, h2, h3⟩ := C14_even_pass_rows p R C hs τ hτ v hv
  exact ⟨step, vs, w, h1, h2, fun h => hne ((h3 r).mp h)⟩

/-- Row 2 of 6. -/
example : 2 ∈ Order.reference 6 2 ∧ 2 ∉ Order.mask 6 2 := by decide

set_option maxRecDepth 100000 in
theorem masked_ne_reference : masked 2 [] [] 1 3 1 ≠ reference 2 [] [] 1 3 1 := by decide +kernel

/-- **C42** (ii) The results differ: there is an accepted call, with lengths that are multiples of 8, that does not return
the reference key (2 bytes from an empty password and salt, one pass, 3 rows, 1 column). -/
theorem C42_not_reference : ∃ (k T R C : U64) (pwd salt : List U8), Accepts k pwd.length salt.length T R C ∧
    8 ∣ pwd.length ∧ 8 ∣ salt.length ∧
      ∀ p, ¬ (lyra2 p k pwd salt T R C).Returns (reference k.toNat pwd salt T.toNat R.toNat C.toNat) := by
  have ha : Accepts 2 ([] : List U8).length ([] : List U8).length 1 3 1 := by unfold Accepts isizeMax; decide
  refine ⟨2, 1, 3, 1, [], [], ha, by decide, by decide, fun p h => ?_⟩
  exact masked_ne_reference (Res.pure_inj ((C06_lyra2_result p 2 1 3 1 [] [] ha).symm.trans h))

end Props

import Verif.Proofs.OddPass
import Verif.Props.RowsMod
import Verif.Props.Access

/-! Property C58: the number of row operations, for every number of rows. -/

namespace Props
open Rust Rust.Res Spec Spec.Lyra2

/-- The number of ones in the binary representation. -/
def bitCount (m : Nat) : Nat := ((List.range 64).filter m.testBit).length

theorem ones_eq (n m : Nat) (h : m < 2 ^ n) : Proofs.Lyra2.ones m = ((List.range n).filter m.testBit).length := by
  induction n generalizing m with
  | zero =>
    have : m = 0 := by simpa using h
    subst this
    rw [Proofs.Lyra2.ones]; rfl
  | succ n ih =>
    have hs : ((List.range n).map Nat.succ).filter m.testBit = ((List.range n).filter (m / 2).testBit).map Nat.succ := by
      rw [List.filter_map]
      congr 1
      apply List.filter_congr
      intro i _
      simp [Nat.testBit_succ]
    rw [List.range_succ_eq_map, List.filter_cons, hs, Proofs.Lyra2.ones]
    by_cases h0 : m = 0
    · subst h0
      have : (List.range n).filter (Nat.testBit 0) = [] := List.filter_eq_nil_iff.mpr fun i _ => by simp
      simp [this]
    · rw [if_neg h0, ih (m / 2) (by rw [pow_succ] at h; omega), Nat.testBit_zero]
      rcases Nat.mod_two_eq_zero_or_one m with e | e <;> simp [e]; omega

theorem ones_bitCount {m : Nat} (h : m < 2 ^ 64) : Proofs.Lyra2.ones m = bitCount m := ones_eq 64 m h

/-- Reading the binary digits of `m` upwards: the number of ones in the chain that reaches digit `i` from below. A chain begins with a
one whose next digit is a one too; it ends at two adjacent zeros; single zeros within it are passed over. -/
def chain (m : Nat) : Nat → Nat
  | 0 => 0
  | i + 1 => match m.testBit i, m.testBit (i + 1), chain m i with
    | false, false, _ => 0
    | false, true, c => c
    | true, true, c => c + 1
    | true, false, 0 => 0
    | true, false, c + 1 => c + 2

/-- The number of ones in the longest chain. -/
def longestChain (m : Nat) : Nat := ((List.range 65).map (chain m)).foldl max 0

/-- 1011 0011 0101: the two lowest ones are isolated; the next two ones form a chain, which two zeros end; the upper three ones form
a chain, over a single zero. -/
example : chain 0b101100110101 4 = 0 ∧ chain 0b101100110101 6 = 2 ∧ chain 0b101100110101 8 = 0 ∧ chain 0b101100110101 12 = 3 ∧
    longestChain 0b101100110101 = 3 := by decide +kernel

theorem maskChain_chain (m i : Nat) : Proofs.Lyra2.maskChain m i = chain m i := by
  induction i with
  | zero => rfl
  | succ i ih =>
    rw [Proofs.Lyra2.maskChain, chain, ih]
    cases m.testBit i <;> cases m.testBit (i + 1) <;> cases chain m i <;> rfl

/-- The numbers of row operations of odd and of even passes. -/
structure PassCounts (R a b : Nat) : Prop where
  odd : a = 2 ^ longestChain (R - 1)
  even : b = 2 ^ bitCount (R - 1)
  le : a ≤ b
  odd_one : a = 1 ↔ (R / 2 - 1) &&& (R - 1) = 0

theorem pass_counts {R : Nat} (hR : 0 < R) (hR' : R < 2 ^ 63) : PassCounts R (Order.mask R 1).length (Order.mask R 2).length := by
  have hb := Proofs.Lyra2.mask_even_length hR hR' 2 rfl
  have ha := Proofs.Lyra2.mask_odd_length hR hR' 1 rfl
  rw [show Proofs.Lyra2.maskChain (R - 1) = chain (R - 1) from funext (maskChain_chain _)] at ha
  refine ⟨ha, by rw [hb, ones_bitCount (by omega)], ?_, Proofs.Lyra2.mask_odd_one hR hR' 1 rfl⟩
  rw [hb]
  exact Proofs.Lyra2.mask_length_le hR hR' 1

/-- **C58** (i) In `lyra2` and in `lyra2mod`, no row is computed twice in a pass. All odd passes perform the same number `a` of row
operations, and all even passes the same number `b`; `b` is two to the number of ones of `n_rows - 1`, `a` is two to the number of
ones in the longest chain of `n_rows - 1`. So `a` is not above `b`, and it is 1 exactly if `n_rows/2 - 1` and `n_rows - 1` have no
common bit. -/
theorem C58_pass_counts (R C : U64) (hs : Shape R C) :
    ∃ a b, PassCounts R.toNat a b ∧
      (∀ p τ v, PassStart R C v → ∃ step vs w, (Model.Lyra2.wanderStep p R τ).Returns step ∧
        Rounds (Model.Lyra2.wanderBody p R C (rowLen C) step) vs w ∧ vs.head? = some v ∧
        (vs.map fun u => u.row.toNat).Nodup ∧ vs.length = if τ % 2 = 1 then a else b) ∧
      (∀ p τ v, PassStartMod R C v → ∃ step vs w, (Model.Lyra2mod.wanderStep p R τ).Returns step ∧
        Rounds (Model.Lyra2mod.wanderBody p R C (rowLen C) step) vs w ∧ vs.head? = some v ∧
        (vs.map fun u => u.row.toNat).Nodup ∧ vs.length = if τ % 2 = 1 then a else b) := by
  have hR : 0 < R.toNat := by have := hs.rows; omega
  have hlt := hs.rows_lt
  have key : ∀ τ, (Order.mask R.toNat τ).Nodup ∧ (Order.mask R.toNat τ).length =
      if τ % 2 = 1 then (Order.mask R.toNat 1).length else (Order.mask R.toNat 2).length := by
    intro τ
    obtain ⟨e, -, hn, -⟩ := Proofs.Lyra2.mask_pow hR (by omega) τ
    refine ⟨hn, ?_⟩
    split
    · rw [Proofs.Lyra2.mask_parity R.toNat (τ' := 1) (by omega)]
    · rw [Proofs.Lyra2.mask_parity R.toNat (τ' := 2) (by omega)]
  refine ⟨_, _, pass_counts hR (by omega), fun p τ v hv => ?_, fun p τ v hv => ?_⟩
  · obtain ⟨step, vs, w, h1, h2, h3⟩ := pass_rows p hs τ hv
    refine ⟨step, v :: vs, w, h1, h2, rfl, h3 ▸ (key τ).1, ?_⟩
    rw [← (key τ).2, ← h3, List.length_map]
  · obtain ⟨step, vs, w, h1, h2, h3⟩ := mod_pass_rows p hs τ hv
    refine ⟨step, v :: vs, w, h1, h2, rfl, h3 ▸ (key τ).1, ?_⟩
    rw [← (key τ).2, ← h3, List.length_map]

/-- 14 rows: 4 row operations in an odd pass, 8 in an even one. -/
example : Shape 14 1 ∧ Order.mask 14 1 = [0, 4, 8, 12] ∧ Order.mask 14 2 = [0, 13, 12, 9, 8, 5, 4, 1] ∧ bitCount (14 - 1) = 3 ∧
    longestChain (14 - 1) = 2 :=
  ⟨⟨by decide, by decide, by unfold isizeMax; decide⟩, by decide, by decide, by decide, by decide +kernel⟩

theorem schedule_length (R T : Nat) :
    (schedule (Order.mask R) T).length = (T + 1) / 2 * (Order.mask R 1).length + T / 2 * (Order.mask R 2).length := by
  induction T with
  | zero => simp [schedule]
  | succ T ih =>
    rw [schedule_succ, List.length_append, ih]
    rcases Nat.mod_two_eq_zero_or_one T with e | e
    · rw [Proofs.Lyra2.mask_parity R (τ := T + 1) (τ' := 1) (by omega), show (T + 1 + 1) / 2 = (T + 1) / 2 + 1 by omega,
        show (T + 1) / 2 = T / 2 by omega]
      ring
    · rw [Proofs.Lyra2.mask_parity R (τ := T + 1) (τ' := 2) (by omega), show (T + 1 + 1) / 2 = (T + 1) / 2 by omega,
        show (T + 1) / 2 = T / 2 + 1 by omega]
      ring

theorem accepts_rows_lt {k T R C : U64} {a b : Nat} (h : Accepts k a b T R C) : R.toNat < 2 ^ 63 := by
  obtain ⟨-, -, -, h4, h5⟩ := h
  have hC : 0 < C.toNat := by
    by_contra hc
    have : C.toNat = 0 := by omega
    rw [this] at h5
    omega
  have : R.toNat ≤ R.toNat * C.toNat := Nat.le_mul_of_pos_right _ hC
  unfold isizeMax at h4
  omega

/-- **C58** (ii) The number of row operations of a whole call, for every number of rows: `(T+1)/2` odd passes and `T/2` even ones.
It determines the cost (C56). -/
theorem C58_total (p : Profile) (k T R C : U64) (pwd salt : List U8) (h : Accepts k pwd.length salt.length T R C) :
    ∃ out out' log log' a b, (Model.Log.lyra2 p k pwd salt T R C []).Returns (out, log) ∧
      (Model.Log.lyra2mod p k pwd salt T R C []).Returns (out', log') ∧ PassCounts R.toNat a b ∧
      Cost log k.toNat pwd.length salt.length R.toNat C.toNat ((T.toNat + 1) / 2 * a + T.toNat / 2 * b) ∧
      Cost log' k.toNat pwd.length salt.length R.toNat C.toNat ((T.toNat + 1) / 2 * a + T.toNat / 2 * b) := by
  obtain ⟨out, out', log, log', n, h1, h2, h3, h4, h5, -, -⟩ := C56_cost p k T R C pwd salt h
  rw [h5, schedule_length] at h3 h4
  have hR' : R.toNat < 2 ^ 63 := accepts_rows_lt h
  exact ⟨out, out', log, log', _, _, h1, h2, pass_counts (by have := h.2.1; omega) hR', h3, h4⟩

theorem ones_two_pow (j : Nat) : Proofs.Lyra2.ones (2 ^ j) = 1 := by
  induction j with
  | zero => rw [Proofs.Lyra2.ones, Proofs.Lyra2.ones]; rfl
  | succ j ih =>
    have : 0 < 2 ^ j := Nat.two_pow_pos j
    rw [Proofs.Lyra2.ones, if_neg (by rw [pow_succ]; omega), show 2 ^ (j + 1) / 2 = 2 ^ j by rw [pow_succ]; omega, ih,
      show 2 ^ (j + 1) % 2 = 0 by rw [pow_succ]; omega]

/-- **C58** (iii) One row more than a power of two: the wandering phase of a call performs three row operations for every two passes,
whatever the size of the matrix. (With `2^j` rows it performs `2^j` for every pass, C56.) -/
theorem C58_pow2_succ (p : Profile) (k T R C : U64) (pwd salt : List U8) (h : Accepts k pwd.length salt.length T R C) (j : Nat)
    (hj : R.toNat = 2 ^ j + 1) :
    ∃ out out' log log', (Model.Log.lyra2 p k pwd salt T R C []).Returns (out, log) ∧
      (Model.Log.lyra2mod p k pwd salt T R C []).Returns (out', log') ∧
      Event.count .round log = C.toNat * (R.toNat + (T.toNat + T.toNat / 2)) ∧
      Event.count .round log' = C.toNat * (R.toNat + (T.toNat + T.toNat / 2)) := by
  obtain ⟨out, out', log, log', n, h1, h2, h3, h4, h5, -, -⟩ := C56_cost p k T R C pwd salt h
  have hlt := accepts_rows_lt h
  have hj1 : 1 ≤ j := by
    by_contra hc
    have : j = 0 := by omega
    subst this
    have := h.2.1
    omega
  have hb := Proofs.Lyra2.mask_even_length (R := R.toNat) (by have := h.2.1; omega) hlt 2 rfl
  rw [hj, Nat.add_sub_cancel, ones_two_pow, pow_one, ← hj] at hb
  have ha : (Order.mask R.toNat 1).length = 1 := by rw [hj, mask_two_pow_succ hj1 rfl]; rfl
  rw [schedule_length, ha, hb] at h5
  have hn : n = T.toNat + T.toNat / 2 := by omega
  exact ⟨out, out', log, log', h1, h2, by rw [h3.rounds, hn], by rw [h4.rounds, hn]⟩

/-- 1025 rows of 4 columns and 10 passes, accepted: 15 row operations; with 1024 rows there are 10240. -/
example : Accepts 32 32 32 10 1025 4 ∧ (1025 : U64).toNat = 2 ^ 10 + 1 ∧ 10 + 10 / 2 = 15 ∧
    (schedule (Order.mask (2 ^ 10)) 10).length = 10240 :=
  ⟨by unfold Accepts isizeMax; decide, by decide, rfl, (C47_schedule_pow2 10 (by decide) 10).2.1⟩

end Props

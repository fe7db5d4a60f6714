import Verif.Proofs.Lyra2Rows
import Mathlib.Data.Nat.Log
import Mathlib.Algebra.Ring.Parity
import Mathlib.Data.Nat.ModEq
import Mathlib.Data.Nat.Prime.Basic
import Mathlib.Algebra.Order.Ring.Nat

/-! The setup loop: closed form of its loop variables, and simulation of the specification's setup phase. -/

namespace Proofs.Lyra2
open Rust Rust.Res Model.Lyra2 Spec Spec.Lyra2 Proofs.Sponge

/-! ## The revisited row -/

theorem setupStep_odd (j : Nat) : setupStep j % 2 = 1 := by
  unfold setupStep
  split
  · rfl
  · next h =>
    obtain ⟨k, rfl⟩ : ∃ k, j = k + 2 := ⟨j - 2, by omega⟩
    have h2 : 2 ^ (k + 2 - 1) = 2 * 2 ^ k := by rw [show k + 2 - 1 = k + 1 by omega, pow_succ]; ring
    have : 0 < 2 ^ k := by positivity
    split <;> omega

theorem setupStep_le (j : Nat) : setupStep j ≤ 2 ^ j + 1 := by
  unfold setupStep
  have : 2 ^ (j - 1) ≤ 2 ^ j := Nat.pow_le_pow_right (by decide) (by omega)
  have : 0 < 2 ^ j := by positivity
  split
  · omega
  · split <;> omega

theorem setupStep_succ {j : Nat} (hj : 1 ≤ j) :
    setupStep (j + 1) = if j % 2 = 1 then 2 ^ j + 1 else 2 ^ j - 1 := by
  unfold setupStep
  rw [if_neg (by omega), Nat.add_sub_cancel]
  by_cases h : j % 2 = 1
  · rw [if_pos h, if_pos (by omega)]
  · rw [if_neg h, if_neg (by omega)]

/-- Multiplication by an odd number is injective modulo a power of two. -/
theorem odd_mul_inj {j t a b : Nat} (ht : t % 2 = 1) (ha : a < 2 ^ j) (hb : b < 2 ^ j)
    (h : a * t % 2 ^ j = b * t % 2 ^ j) : a = b := by
  have hc : Nat.Coprime (2 ^ j) t := by
    apply Nat.Coprime.pow_left
    exact Nat.coprime_two_left.mpr (Nat.odd_iff.mpr ht)
  have h1 : a * t ≡ b * t [MOD 2 ^ j] := h
  have h2 : a ≡ b [MOD 2 ^ j] := Nat.ModEq.cancel_right_of_coprime hc h1
  unfold Nat.ModEq at h2
  rwa [Nat.mod_eq_of_lt ha, Nat.mod_eq_of_lt hb] at h2

theorem log2_bounds {n : Nat} (h : n ≠ 0) : 2 ^ Nat.log2 n ≤ n ∧ n < 2 ^ (Nat.log2 n + 1) :=
  ⟨Nat.log2_self_le h, Nat.lt_log2_self⟩

theorem log2_unique {n j : Nat} (h1 : 2 ^ j ≤ n) (h2 : n < 2 ^ (j + 1)) : Nat.log2 n = j := by
  have hn : n ≠ 0 := by have : 0 < 2 ^ j := by positivity
                        omega
  exact (Nat.log2_eq_iff hn).mpr ⟨h1, h2⟩

theorem setupStar_eq {j i : Nat} (hi : i < 2 ^ j) : setupStar (2 ^ j + i) = i * setupStep j % 2 ^ j := by
  have : Nat.log2 (2 ^ j + i) = j := log2_unique (by omega) (by rw [pow_succ]; omega)
  unfold setupStar
  simp only [this, Nat.add_sub_cancel_left]

theorem setupStar_lt {row : Nat} (h : 2 ≤ row) : setupStar row < row - 1 := by
  obtain ⟨h1, h2⟩ := log2_bounds (show row ≠ 0 by omega)
  have hl : 1 ≤ Nat.log2 row := (Nat.le_log2 (by omega)).mpr (by omega)
  have hw : 2 ^ 1 ≤ 2 ^ Nat.log2 row := Nat.pow_le_pow_right (by decide) hl
  have hm : setupStar row < 2 ^ Nat.log2 row := Nat.mod_lt _ (by positivity)
  by_cases e : row = 2 ^ Nat.log2 row
  · have : setupStar row = 0 := by
      unfold setupStar
      simp only
      rw [show row - 2 ^ Nat.log2 row = 0 by omega]; simp
    omega
  · omega

/-! ## The loop variables -/

/-- Closed form of the loop variables when row `row` is about to be computed. -/
def setupVars (row : Nat) : SetupVars :=
  let j := Nat.log2 row
  { row := BitVec.ofNat 64 row, prev := BitVec.ofNat 64 (row - 1), rowa := BitVec.ofNat 64 (setupStar row),
    step := BitVec.ofNat 64 (setupStep j), window := BitVec.ofNat 64 (2 ^ j), gap := if j % 2 = 1 then 1 else -1 }

theorem setupVars_start : SetupVars.start = setupVars 2 := by
  unfold setupVars
  rw [show Nat.log2 2 = 1 by decide]
  rfl

theorem ofNat_and_mask (a j : Nat) (hj : j < 64) :
    BitVec.ofNat 64 a &&& BitVec.ofNat 64 (2 ^ j - 1) = BitVec.ofNat 64 (a % 2 ^ j) := by
  apply BitVec.eq_of_toNat_eq
  have hp : 0 < 2 ^ j := by positivity
  have hj' : 2 ^ j - 1 < 2 ^ 64 := by
    have : 2 ^ j ≤ 2 ^ 64 := Nat.pow_le_pow_right (by decide) (by omega)
    omega
  rw [BitVec.toNat_and, BitVec.toNat_ofNat, BitVec.toNat_ofNat, Nat.mod_eq_of_lt hj', Nat.and_two_pow_sub_one_eq_mod,
    BitVec.toNat_ofNat, Nat.mod_mod_of_dvd _ (Nat.pow_dvd_pow 2 (by omega))]
  have : a % 2 ^ j < 2 ^ j := Nat.mod_lt _ hp
  have : a % 2 ^ j < 2 ^ 64 := by
    have : 2 ^ j ≤ 2 ^ 64 := Nat.pow_le_pow_right (by decide) (by omega)
    omega
  rw [Nat.mod_eq_of_lt this]

theorem ofNat_inj64 {a b : Nat} (ha : a < 2 ^ 64) (hb : b < 2 ^ 64) : BitVec.ofNat 64 a = BitVec.ofNat 64 b ↔ a = b := by
  constructor
  · intro h
    have := congrArg BitVec.toNat h
    rwa [toNat_ofNat64 ha, toNat_ofNat64 hb] at this
  · rintro rfl; rfl

theorem iadd_neg_one (p : Profile) {a : Nat} (h0 : 0 < a) (h : a < 2 ^ 63) :
    iadd p (BitVec.ofNat 64 a) (-1#64) = pure (BitVec.ofNat 64 (a - 1)) := by
  unfold iadd
  have : BitVec.saddOverflow (BitVec.ofNat 64 a) (-1#64) = false := by
    unfold BitVec.saddOverflow
    rw [ofNat_toInt (by omega), show (-1#64).toInt = -1 by decide]
    simp; omega
  rw [this]
  have : BitVec.ofNat 64 a + -1#64 = BitVec.ofNat 64 (a - 1) := by
    apply BitVec.eq_of_toNat_eq
    rw [BitVec.toNat_add, show (-1#64).toNat = 2 ^ 64 - 1 by decide]
    simp only [BitVec.toNat_ofNat]
    omega
  rw [this, Bool.and_false]; rfl

/-- The code's update of the loop variables is the closed form of the next row. -/
theorem setupVars_next (p : Profile) {row : Nat} (h2 : 2 ≤ row) (h : row < 2 ^ 60) :
    (setupVars row).next p = pure (setupVars (row + 1)) := by
  obtain ⟨hb1, hb2⟩ := log2_bounds (show row ≠ 0 by omega)
  have hj1 : 1 ≤ Nat.log2 row := (Nat.le_log2 (by omega)).mpr (by omega)
  have hstar : setupStar row = (row - 2 ^ Nat.log2 row) * setupStep (Nat.log2 row) % 2 ^ Nat.log2 row := rfl
  unfold setupVars SetupVars.next
  simp only
  generalize hj : Nat.log2 row = j at *
  have hp : 0 < 2 ^ j := by positivity
  have hj60 : j < 60 := by
    by_contra hc
    have : 2 ^ 60 ≤ 2 ^ j := Nat.pow_le_pow_right (by decide) (by omega)
    omega
  have hst := setupStep_le j
  have hodd := setupStep_odd j
  have hsl := setupStar_lt h2
  rw [show (1 : BitVec 64) = BitVec.ofNat 64 1 from rfl, iadd_ofNat p (by omega), pure_bind, isub_ofNat p (by omega) hp,
    pure_bind, iadd_ofNat p (by omega), pure_bind, ofNat_and_mask _ _ (by omega)]
  -- the next row*
  have hmul : (setupStar row + setupStep j) % 2 ^ j = (row + 1 - 2 ^ j) * setupStep j % 2 ^ j := by
    rw [hstar, Nat.mod_add_mod, ← Nat.succ_mul, Nat.succ_eq_add_one, show row - 2 ^ j + 1 = row + 1 - 2 ^ j by omega]
  by_cases hlast : row + 1 = 2 ^ (j + 1)
  · -- the window is complete
    have hz : (setupStar row + setupStep j) % 2 ^ j = 0 := by
      rw [hmul, hlast, show 2 ^ (j + 1) - 2 ^ j = 2 ^ j by rw [pow_succ]; omega, Nat.mul_mod_right]
    have hl : Nat.log2 (row + 1) = j + 1 := log2_unique (by omega) (by rw [hlast, pow_succ 2 (j + 1)]; omega)
    have hs : setupStar (row + 1) = 0 := by
      unfold setupStar
      simp only [hl]
      rw [show row + 1 - 2 ^ (j + 1) = 0 by omega]; simp
    rw [hz, if_pos (show BitVec.ofNat 64 0 = 0 from rfl), hl, hs]
    by_cases hpar : j % 2 = 1
    · rw [if_pos hpar, iadd_ofNat p (by omega), pure_bind,
        show (2 : BitVec 64) = BitVec.ofNat 64 2 from rfl, imul_ofNat p (by omega) (by omega) (by omega), pure_bind,
        if_neg (show ¬ (j + 1) % 2 = 1 by omega), setupStep_succ hj1, if_pos hpar, Nat.add_sub_cancel, pow_succ]
      have : ineg p (BitVec.ofNat 64 1) = pure (-1#64) := by cases p <;> rfl
      rw [this, pure_bind]
    · rw [if_neg hpar, iadd_neg_one p hp (by omega), pure_bind,
        show (2 : BitVec 64) = BitVec.ofNat 64 2 from rfl, imul_ofNat p (by omega) (by omega) (by omega), pure_bind,
        if_pos (show (j + 1) % 2 = 1 by omega), setupStep_succ hj1, if_neg hpar, Nat.add_sub_cancel, pow_succ]
      have : ineg p (-1#64) = pure (BitVec.ofNat 64 1) := by cases p <;> rfl
      rw [this, pure_bind]
  · -- inside the window
    have hl : Nat.log2 (row + 1) = j := log2_unique (by omega) (by omega)
    have hs : setupStar (row + 1) = (setupStar row + setupStep j) % 2 ^ j := by
      rw [hmul]; unfold setupStar; simp only [hl]
    have hnz : (setupStar row + setupStep j) % 2 ^ j ≠ 0 := by
      rw [hmul]
      intro h0
      have := odd_mul_inj hodd (a := row + 1 - 2 ^ j) (b := 0) (by rw [pow_succ] at hlast hb2; omega) hp (by rw [h0]; simp)
      omega
    have hlt : (setupStar row + setupStep j) % 2 ^ j < 2 ^ j := Nat.mod_lt _ hp
    rw [if_neg (by rw [show (0 : BitVec 64) = BitVec.ofNat 64 0 from rfl, ofNat_inj64 (by omega) (by omega)]; exact hnz),
      hl, hs, Nat.add_sub_cancel]

/-- The setup loop simulates the specification's. -/
theorem setupRows_prefix {R C K : Nat} (p : Profile) (hM : 12 * (R * C) < 2 ^ 60) (hR : 2 ≤ K) (hK : K ≤ R) (hC : 0 < C) {m : Matrix} {M : Mem}
    {s : State} (h : Rep R C m M) :
    (Model.Lyra2.setupRows p (BitVec.ofNat 64 K) (BitVec.ofNat 64 C) (BitVec.ofNat 64 (12 * C)) s m).Sat
      (fun x => Rep2 R C (x.1, x.2.1) (Spec.Lyra2.setupRows K C (s, M)) ∧ x.2.2 = setupVars K) := by
  obtain ⟨-, -, -, -, hR', -, -⟩ := bounds hM (show 0 < R by omega) hC
  unfold Model.Lyra2.setupRows Spec.Lyra2.setupRows
  rw [show (2 : BitVec 64) = BitVec.ofNat 64 2 from rfl, irangeLen_ofNat (by omega) (by omega), setupVars_start]
  have := forLoop_sat (fun j (x : State × Matrix × SetupVars) =>
    Rep2 R C (x.1, x.2.1) ((List.range j).foldl (fun sM i => setupRow C (i + 1) (setupStar (i + 2)) (i + 2) sM) (s, M)) ∧
      x.2.2 = setupVars (j + 2)) 2 (K - 2) (s, m, setupVars 2) ⟨⟨rfl, h⟩, rfl⟩
      (body := fun _ x => do
        let (state, m) ← duplexRowSetup p (BitVec.ofNat 64 C) (BitVec.ofNat 64 (12 * C)) x.2.2.prev x.2.2.rowa x.2.2.row x.1 x.2.1
        let v ← x.2.2.next p
        pure (state, m, v)) ?_
  · exact this.mono fun x hx => ⟨hx.1, by rw [hx.2, show K - 2 + 2 = K by omega]⟩
  · intro j x hj hx
    obtain ⟨s1, m1, v⟩ := x
    rw [List.range_succ, List.foldl_append]
    generalize List.foldl _ _ (List.range j) = y at hx ⊢
    obtain ⟨s', M1⟩ := y
    obtain ⟨⟨rfl, hm⟩, hv⟩ := hx
    dsimp only at hv hm ⊢
    subst hv
    have hsl := setupStar_lt (show 2 ≤ j + 2 by omega)
    refine Sat.bind (duplexRowSetup_ok p hM hm (prev := j + 1) (rowa := setupStar (j + 2)) (row := j + 2)
      (by omega) (by omega) (by omega) hC) fun x hx => ?_
    rw [setupVars_next p (by omega) (by omega), pure_bind]
    exact .pure ⟨hx, rfl⟩

theorem setupRows_ok {R C : Nat} (p : Profile) (hM : 12 * (R * C) < 2 ^ 60) (hR : 2 ≤ R) (hC : 0 < C) {m : Matrix} {M : Mem}
    {s : State} (h : Rep R C m M) :
    (Model.Lyra2.setupRows p (BitVec.ofNat 64 R) (BitVec.ofNat 64 C) (BitVec.ofNat 64 (12 * C)) s m).Sat
      (fun x => Rep2 R C (x.1, x.2.1) (Spec.Lyra2.setupRows R C (s, M)) ∧ x.2.2 = setupVars R) :=
  setupRows_prefix p hM hR le_rfl hC h

end Proofs.Lyra2

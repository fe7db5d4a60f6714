import Verif.Proofs.Lyra2Setup
import Mathlib.Data.Finset.Card
import Mathlib.Data.Finset.Range
import Mathlib.Combinatorics.Pigeonhole

/-! The row sequence of a wandering pass: it always comes back to row 0. -/

namespace Proofs.Lyra2
open Rust Rust.Res Spec Spec.Lyra2

/-- Masked addition is injective on submasks: `(x + s) AND m` determines `x` when `x AND m = x`. -/
theorem mask_add_inj {n : Nat} (x y s m : BitVec n) (hx : x &&& m = x) (hy : y &&& m = y)
    (h : (x + s) &&& m = (y + s) &&& m) : x = y := by
  have key : ∀ i, i ≤ n → x.toNat % 2 ^ i = y.toNat % 2 ^ i := by
    intro i
    induction i with
    | zero => intro _; simp [Nat.mod_one]
    | succ i ih =>
      intro hi
      have ih := ih (by omega)
      have hbit : x.toNat.testBit i = y.toNat.testBit i := by
        show x.getLsbD i = y.getLsbD i
        have hx' : x.getLsbD i = (x.getLsbD i && m.getLsbD i) := by
          conv_lhs => rw [← hx]
          rw [BitVec.getLsbD_and]
        have hy' : y.getLsbD i = (y.getLsbD i && m.getLsbD i) := by
          conv_lhs => rw [← hy]
          rw [BitVec.getLsbD_and]
        cases hm : m.getLsbD i with
        | false => rw [hx', hy', hm]; simp
        | true =>
          have h1 := congrArg (fun v => v.getLsbD i) h
          simp only [BitVec.getLsbD_and, hm, Bool.and_true, BitVec.getLsbD_add (show i < n by omega)] at h1
          have hc : BitVec.carry i x s false = BitVec.carry i y s false := by
            unfold BitVec.carry
            rw [ih]
          rw [hc] at h1
          cases hxb : x.getLsbD i <;> cases hyb : y.getLsbD i <;> simp_all
      rw [Nat.testBit_eq_decide_div_mod_eq, Nat.testBit_eq_decide_div_mod_eq, decide_eq_decide] at hbit
      rw [Nat.mod_pow_succ, Nat.mod_pow_succ, ih, show x.toNat / 2 ^ i % 2 = y.toNat / 2 ^ i % 2 by omega]
  have := key n le_rfl
  rw [Nat.mod_eq_of_lt x.isLt, Nat.mod_eq_of_lt y.isLt] at this
  exact BitVec.eq_of_toNat_eq this

/-- Iterating an injective map on a set with fewer than `N + 1` elements comes back within `N` steps. -/
theorem iterate_returns {α : Type} (f : α → α) (S : α → Prop) (x0 : α) (h0 : S x0) (hS : ∀ x, S x → S (f x))
    (inj : ∀ x y, S x → S y → f x = f y → x = y) (rank : α → Nat) (rinj : ∀ x y, S x → S y → rank x = rank y → x = y)
    (N : Nat) (hN : ∀ x, S x → rank x < N) : ∃ n, 1 ≤ n ∧ n ≤ N ∧ f^[n] x0 = x0 := by
  have hit : ∀ i, S (f^[i] x0) := by
    intro i
    induction i with
    | zero => exact h0
    | succ i ih => rw [Function.iterate_succ_apply']; exact hS _ ih
  obtain ⟨i, hi, j, hj, hne, heq⟩ := Finset.exists_ne_map_eq_of_card_lt_of_maps_to
    (s := Finset.range (N + 1)) (t := Finset.range N) (by simp) (f := fun i => rank (f^[i] x0))
    (fun i _ => by simpa using hN _ (hit i))
  have cancel : ∀ i j, i < j → rank (f^[i] x0) = rank (f^[j] x0) → f^[j - i] x0 = x0 := by
    intro i
    induction i with
    | zero =>
      intro j _ h
      have := rinj _ _ (hit 0) (hit j) h
      rw [Nat.sub_zero]; exact this.symm
    | succ i ih =>
      intro j hj h
      have h1 := rinj _ _ (hit _) (hit _) h
      obtain ⟨j', rfl⟩ : ∃ j', j = j' + 1 := ⟨j - 1, by omega⟩
      rw [Function.iterate_succ_apply', Function.iterate_succ_apply'] at h1
      have h2 := inj _ _ (hit i) (hit j') h1
      have := ih j' (by omega) (by rw [h2])
      rwa [show j' + 1 - (i + 1) = j' - i by omega]
  simp only [Finset.mem_range] at hi hj
  rcases Nat.lt_or_gt_of_ne hne with h | h
  · exact ⟨j - i, by omega, by omega, cancel i j h heq⟩
  · exact ⟨i - j, by omega, by omega, cancel j i h heq.symm⟩

/-- The row update comes back to row 0 after at most `m + 1` steps, for every step and every mask. -/
theorem mask_orbit_returns {n : Nat} (s m : BitVec n) :
    ∃ k, 1 ≤ k ∧ k ≤ m.toNat + 1 ∧ (fun x => (x + s) &&& m)^[k] 0 = 0 := by
  refine iterate_returns (fun x => (x + s) &&& m) (fun x => x &&& m = x) 0 (by simp) (fun x _ => ?_)
    (fun x y hx hy h => mask_add_inj x y s m hx hy h) BitVec.toNat (fun x y _ _ h => BitVec.eq_of_toNat_eq h)
    (m.toNat + 1) (fun x hx => ?_)
  · rw [BitVec.and_assoc, BitVec.and_self]
  · have : x.toNat ≤ m.toNat := by
      rw [← hx, BitVec.toNat_and]; exact Nat.and_le_right
    omega

/-! ## The same for row numbers -/

theorem maskNext_lt {R : Nat} (hR : 0 < R) (τ x : Nat) : maskNext R τ x < R := by
  unfold maskNext
  have h : ∀ a, a &&& (R - 1) < R := fun a => by
    have : a &&& (R - 1) ≤ R - 1 := Nat.and_le_right
    omega
  split
  · exact h _
  · split
    · omega
    · exact h _

/-- The step of a pass, as the code has it. -/
def stepOf (R τ : Nat) : I64 := if τ % 2 = 0 then -1#64 else BitVec.ofNat 64 (R / 2 - 1)

theorem maskNext_bv {R : Nat} (hR : 0 < R) (hR' : R < 2 ^ 63) (τ x : Nat) (hx : x < R) :
    BitVec.ofNat 64 (maskNext R τ x) = (BitVec.ofNat 64 x + stepOf R τ) &&& BitVec.ofNat 64 (R - 1) := by
  have hlt := maskNext_lt hR τ x
  unfold stepOf
  unfold maskNext at *
  by_cases hp : τ % 2 = 1
  · rw [if_pos hp] at *
    rw [if_neg (by omega), ← BitVec.ofNat_add]
    apply BitVec.eq_of_toNat_eq
    rw [BitVec.toNat_and, toNat_ofNat64 (by omega), toNat_ofNat64 (by omega), toNat_ofNat64 (by omega)]
  · rw [if_neg hp] at *
    rw [if_pos (show τ % 2 = 0 by omega)]
    by_cases h0 : x = 0
    · subst h0
      rw [if_pos rfl]
      apply BitVec.eq_of_toNat_eq
      rw [BitVec.toNat_and, show (BitVec.ofNat 64 0 + -1#64).toNat = 2 ^ 64 - 1 by decide, toNat_ofNat64 (by omega),
        Nat.and_comm, Nat.and_two_pow_sub_one_eq_mod, Nat.mod_eq_of_lt (by omega)]
    · rw [if_neg h0] at *
      have : BitVec.ofNat 64 x + -1#64 = BitVec.ofNat 64 (x - 1) := by
        apply BitVec.eq_of_toNat_eq
        rw [BitVec.toNat_add, show (-1#64).toNat = 2 ^ 64 - 1 by decide]
        simp only [BitVec.toNat_ofNat]
        omega
      rw [this]
      apply BitVec.eq_of_toNat_eq
      rw [BitVec.toNat_and, toNat_ofNat64 (by omega), toNat_ofNat64 (by omega), toNat_ofNat64 (by omega)]

theorem maskNext_iterate {R : Nat} (hR : 0 < R) (hR' : R < 2 ^ 63) (τ n : Nat) :
    (maskNext R τ)^[n] 0 < R ∧ BitVec.ofNat 64 ((maskNext R τ)^[n] 0) =
      (fun x => (x + stepOf R τ) &&& BitVec.ofNat 64 (R - 1))^[n] 0 := by
  induction n with
  | zero => exact ⟨hR, rfl⟩
  | succ n ih =>
    rw [Function.iterate_succ_apply', Function.iterate_succ_apply', ← ih.2]
    exact ⟨maskNext_lt hR _ _, maskNext_bv hR hR' _ _ ih.1⟩

/-- Every pass comes back to row 0 after at most `R` rows. -/
theorem maskNext_returns {R : Nat} (hR : 0 < R) (hR' : R < 2 ^ 63) (τ : Nat) :
    ∃ n, 1 ≤ n ∧ n ≤ R ∧ (maskNext R τ)^[n] 0 = 0 := by
  obtain ⟨n, h1, h2, h3⟩ := mask_orbit_returns (stepOf R τ) (BitVec.ofNat 64 (R - 1))
  rw [toNat_ofNat64 (by omega)] at h2
  refine ⟨n, h1, by omega, ?_⟩
  obtain ⟨h4, h5⟩ := maskNext_iterate hR hR' τ n
  rw [h3, show (0 : BitVec 64) = BitVec.ofNat 64 0 from rfl, ofNat_inj64 (by omega) (by omega)] at h5
  exact h5

theorem orbit_length (next : Nat → Nat) (fuel x : Nat) : (orbit next fuel x).length ≤ fuel := by
  induction fuel generalizing x with
  | zero => simp [orbit]
  | succ n ih =>
    unfold orbit
    have := ih (next x)
    split <;> simp; omega

/-- All rows visited by a pass are below `R`. -/
theorem orbit_lt {R τ : Nat} (hR : 0 < R) (fuel x : Nat) (hx : x < R) : ∀ r ∈ orbit (maskNext R τ) fuel x, r < R := by
  induction fuel generalizing x with
  | zero => simp [orbit]
  | succ n ih =>
    unfold orbit
    intro r hr
    rcases List.mem_cons.mp hr with rfl | hr
    · exact hx
    · split at hr
      · simp at hr
      · exact ih _ (maskNext_lt hR _ _) r hr

end Proofs.Lyra2

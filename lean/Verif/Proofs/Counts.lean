import Verif.Proofs.Lyra2Orders
import Mathlib.Data.List.Nodup
import Mathlib.Data.List.Perm.Basic

/-! How many rows a pass of the wandering phase computes, for any number of rows. -/

namespace Proofs.Lyra2
open Spec Spec.Lyra2

/-! ## Iterated masked addition comes back to 0 exactly at the multiples of a power of two -/

section
variable (s m : Nat)

theorem low_congr {i x y : Nat} (h : x % 2 ^ i = y % 2 ^ i) : ((x + s) &&& m) % 2 ^ i = ((y + s) &&& m) % 2 ^ i := by
  rw [Nat.and_mod_two_pow, Nat.and_mod_two_pow, Nat.add_mod, h, ← Nat.add_mod]

theorem testBit_low (x i : Nat) : (x % 2 ^ (i + 1)).testBit i = x.testBit i := by
  rw [Nat.testBit_mod_two_pow]; simp

theorem bit_add {i x y : Nat} (h : x % 2 ^ i = y % 2 ^ i) :
    (x + s).testBit i = ((y + s).testBit i ^^ (x.testBit i ^^ y.testBit i)) := by
  have key : ∀ z, (z + s).testBit i = ((z % 2 ^ i + s).testBit i ^^ z.testBit i) := by
    intro z
    have e1 : (z + s).testBit i = (z % 2 ^ i + 2 ^ i * (z / 2 ^ i % 2) + s).testBit i := by
      rw [← testBit_low (z + s), ← Nat.mod_pow_succ, ← testBit_low (z % 2 ^ (i + 1) + s), Nat.mod_add_mod]
    rw [e1, Nat.testBit_eq_decide_div_mod_eq (x := z)]
    rcases Nat.mod_two_eq_zero_or_one (z / 2 ^ i) with e | e
    · rw [e]; simp
    · rw [e, Nat.mul_one, show z % 2 ^ i + 2 ^ i + s = 2 ^ i + (z % 2 ^ i + s) by omega, Nat.testBit_two_pow_add_eq]; simp
  rw [key x, key y, h]
  cases (y % 2 ^ i + s).testBit i <;> cases x.testBit i <;> cases y.testBit i <;> rfl

/-- The row after `n` steps from row 0. -/
def at_ (n : Nat) : Nat := (fun x => (x + s) &&& m)^[n] 0

theorem at_succ (n : Nat) : at_ s m (n + 1) = (at_ s m n + s) &&& m := Function.iterate_succ_apply' _ _ _

theorem at_low {i a b : Nat} (h : at_ s m a % 2 ^ i = at_ s m b % 2 ^ i) (k : Nat) :
    at_ s m (a + k) % 2 ^ i = at_ s m (b + k) % 2 ^ i := by
  induction k with
  | zero => exact h
  | succ k ih => rw [← Nat.add_assoc, ← Nat.add_assoc, at_succ, at_succ]; exact low_congr s m ih

theorem at_bit {i a b : Nat} (hm : m.testBit i = true) (h : at_ s m a % 2 ^ i = at_ s m b % 2 ^ i) (k : Nat) :
    ((at_ s m (a + k)).testBit i ^^ (at_ s m (b + k)).testBit i) = ((at_ s m a).testBit i ^^ (at_ s m b).testBit i) := by
  induction k with
  | zero => rfl
  | succ k ih =>
    rw [← ih, ← Nat.add_assoc, ← Nat.add_assoc, at_succ, at_succ, Nat.testBit_and, Nat.testBit_and, hm, Bool.and_true, Bool.and_true,
      bit_add s (at_low s m h k)]
    cases (at_ s m (b + k) + s).testBit i <;> simp

theorem zero_iff (x i : Nat) : x % 2 ^ (i + 1) = 0 ↔ x % 2 ^ i = 0 ∧ x.testBit i = false := by
  rw [Nat.mod_pow_succ, Nat.testBit_eq_decide_div_mod_eq]
  have hp : 0 < 2 ^ i := Nat.two_pow_pos i
  rcases Nat.mod_two_eq_zero_or_one (x / 2 ^ i) with e | e
  · rw [e]; simp
  · rw [e]; simp

theorem at_zero_low (i : Nat) : ∃ e, ∀ n, at_ s m n % 2 ^ i = 0 ↔ 2 ^ e ∣ n := by
  induction i with
  | zero => exact ⟨0, fun n => by simp [Nat.mod_one]⟩
  | succ i ih =>
    obtain ⟨e, ih⟩ := ih
    cases hm : m.testBit i with
    | false =>
      refine ⟨e, fun n => ?_⟩
      rw [zero_iff, ih, and_iff_left]
      cases n with
      | zero => simp [at_]
      | succ n => rw [at_succ, Nat.testBit_and, hm, Bool.and_false]
    | true =>
      have hq : ∀ q, (at_ s m (2 ^ e * q)).testBit i = (decide (q % 2 = 1) && (at_ s m (2 ^ e)).testBit i) := by
        intro q
        induction q with
        | zero => simp [at_]
        | succ q ihq =>
          have h0 : at_ s m (2 ^ e * q) % 2 ^ i = at_ s m 0 % 2 ^ i := by
            rw [(ih _).2 (Nat.dvd_mul_right _ _), (ih 0).2 (Nat.dvd_zero _)]
          have := at_bit s m hm h0 (2 ^ e)
          rw [ihq, Nat.zero_add] at this
          rw [show 2 ^ e * (q + 1) = 2 ^ e * q + 2 ^ e by ring]
          have e0 : (at_ s m 0).testBit i = false := by simp [at_]
          rw [e0] at this
          rcases Nat.mod_two_eq_zero_or_one q with h | h
          · have h' : (q + 1) % 2 = 1 := by omega
            rw [h] at this
            rw [h']
            revert this
            cases (at_ s m (2 ^ e * q + 2 ^ e)).testBit i <;> cases (at_ s m (2 ^ e)).testBit i <;> simp
          · have h' : (q + 1) % 2 = 0 := by omega
            rw [h] at this
            rw [h']
            revert this
            cases (at_ s m (2 ^ e * q + 2 ^ e)).testBit i <;> cases (at_ s m (2 ^ e)).testBit i <;> simp
      cases hc : (at_ s m (2 ^ e)).testBit i with
      | false =>
        refine ⟨e, fun n => ?_⟩
        rw [zero_iff, ih, and_iff_left_of_imp]
        rintro ⟨q, rfl⟩
        rw [hq, hc, Bool.and_false]
      | true =>
        refine ⟨e + 1, fun n => ?_⟩
        rw [zero_iff, ih]
        constructor
        · rintro ⟨⟨q, rfl⟩, h⟩
          rw [hq, hc, Bool.and_true] at h
          rw [pow_succ]
          refine Nat.mul_dvd_mul_left _ ?_
          have : ¬ q % 2 = 1 := by simpa using h
          omega
        · rintro ⟨q, rfl⟩
          refine ⟨⟨2 * q, by ring⟩, ?_⟩
          rw [show 2 ^ (e + 1) * q = 2 ^ e * (2 * q) by ring, hq]
          simp

theorem at_le (n : Nat) : at_ s m n ≤ m := by
  cases n with
  | zero => exact Nat.zero_le _
  | succ n => rw [at_succ]; exact Nat.and_le_right

/-- The walk is at row 0 exactly at the multiples of a power of two. -/
theorem at_zero : ∃ e, ∀ n, at_ s m n = 0 ↔ 2 ^ e ∣ n := by
  obtain ⟨e, he⟩ := at_zero_low s m m
  refine ⟨e, fun n => ?_⟩
  have : m < 2 ^ m := Nat.lt_two_pow_self
  rw [← he, Nat.mod_eq_of_lt (by have := at_le s m n; omega)]

end

/-! ## The walk of a pass -/

/-- The step of a pass, as a number. -/
def stepNat (R τ : Nat) : Nat := if τ % 2 = 1 then R / 2 - 1 else 2 ^ R - 1

theorem maskNext_step (R τ x : Nat) (hR : 0 < R) : maskNext R τ x = (x + stepNat R τ) &&& (R - 1) := by
  unfold maskNext stepNat
  have hlt : R < 2 ^ R := Nat.lt_two_pow_self
  split
  · rfl
  · by_cases h : x = 0
    · subst h
      rw [if_pos rfl, Nat.zero_add, Nat.and_comm, Nat.and_two_pow_sub_one_eq_mod, Nat.mod_eq_of_lt (by omega)]
    · rw [if_neg h, show x + (2 ^ R - 1) = (x - 1) + 2 ^ R by omega]
      apply Nat.eq_of_testBit_eq
      intro i
      rw [Nat.testBit_and, Nat.testBit_and]
      by_cases hi : i < R
      · rw [Nat.add_comm (x - 1), Nat.testBit_two_pow_add_gt hi]
      · have : (R - 1).testBit i = false := by
          apply Nat.testBit_lt_two_pow
          have : 2 ^ R ≤ 2 ^ i := Nat.pow_le_pow_right (by omega) (by omega)
          omega
        rw [this, Bool.and_false, Bool.and_false]

theorem maskNext_at (R τ n : Nat) (hR : 0 < R) : (maskNext R τ)^[n] 0 = at_ (stepNat R τ) (R - 1) n := by
  induction n with
  | zero => rfl
  | succ n ih => rw [Function.iterate_succ_apply', ih, at_succ, maskNext_step _ _ _ hR]

/-- A pass computes a power of two of rows, all different. -/
theorem mask_pow {R : Nat} (hR : 0 < R) (hR' : R < 2 ^ 63) (τ : Nat) :
    ∃ e, (Order.mask R τ).length = 2 ^ e ∧ (Order.mask R τ).Nodup ∧ ∀ n, (maskNext R τ)^[n] 0 = 0 ↔ 2 ^ e ∣ n := by
  obtain ⟨e, he⟩ := at_zero (stepNat R τ) (R - 1)
  have he : ∀ n, (maskNext R τ)^[n] 0 = 0 ↔ 2 ^ e ∣ n := fun n => by rw [maskNext_at _ _ _ hR, he]
  obtain ⟨n, h1, h2, h3⟩ := maskNext_returns hR hR' τ
  have hle : 2 ^ e ≤ n := Nat.le_of_dvd (by omega) ((he n).1 h3)
  have ho : Order.mask R τ = (List.range (2 ^ e)).map fun i => (maskNext R τ)^[i] 0 :=
    orbit_eq R (2 ^ e) 0 (Nat.one_le_two_pow) (by omega) ((he _).2 (dvd_refl _)) fun i hi hi' h0 =>
      absurd (Nat.le_of_dvd hi ((he i).1 h0)) (by omega)
  refine ⟨e, by rw [ho, List.length_map, List.length_range], ?_, he⟩
  rw [ho]
  refine List.Nodup.map_on ?_ List.nodup_range
  intro a ha b hb h
  rw [List.mem_range] at ha hb
  have key : ∀ a b, a ≤ b → b < 2 ^ e → (maskNext R τ)^[a] 0 = (maskNext R τ)^[b] 0 → a = b := by
    intro a b hab hb h
    have := congrArg (maskNext R τ)^[2 ^ e - a] h
    rw [← Function.iterate_add_apply, ← Function.iterate_add_apply, show 2 ^ e - a + a = 2 ^ e by omega,
      (he _).2 (dvd_refl _)] at this
    have := (he _).1 this.symm
    rw [show 2 ^ e - a + b = 2 ^ e + (b - a) by omega, Nat.dvd_add_right (dvd_refl _)] at this
    have := Nat.eq_zero_of_dvd_of_lt this (by omega)
    omega
  rcases Nat.le_total a b with hab | hab
  · exact key a b hab hb h
  · exact (key b a hab ha h.symm).symm

/-! ## Submasks -/

/-- Number of ones in binary. -/
def ones (m : Nat) : Nat := if m = 0 then 0 else m % 2 + ones (m / 2)

/-- The submasks of `m`. -/
def submasks (m : Nat) : List Nat :=
  if m = 0 then [0] else (submasks (m / 2)).flatMap fun r => if m % 2 = 1 then [2 * r, 2 * r + 1] else [2 * r]

theorem submasks_length (m : Nat) : (submasks m).length = 2 ^ ones m := by
  induction m using Nat.strongRecOn with
  | _ m ih =>
    rw [submasks, ones]
    by_cases h : m = 0
    · rw [if_pos h, if_pos h]; rfl
    · rw [if_neg h, if_neg h]
      rcases Nat.mod_two_eq_zero_or_one m with e | e
      · rw [e]; simp [List.length_flatMap, ih (m / 2) (by omega)]
      · rw [e]; simp [List.length_flatMap, ih (m / 2) (by omega)]; ring

theorem and_half (r m : Nat) : r &&& m = r ↔ (r / 2) &&& (m / 2) = r / 2 ∧ r % 2 ≤ m % 2 := by
  have h1 : (r &&& m) / 2 = (r / 2) &&& (m / 2) := Nat.and_div_two
  have h2 : (r &&& m) % 2 = (r % 2) &&& (m % 2) := by
    have := Nat.and_mod_two_pow (a := r) (b := m) (n := 1)
    simpa using this
  have h3 : (r % 2) &&& (m % 2) = r % 2 ↔ r % 2 ≤ m % 2 := by
    rcases Nat.mod_two_eq_zero_or_one r with e | e <;> rcases Nat.mod_two_eq_zero_or_one m with e' | e' <;> rw [e, e'] <;> decide
  rw [← h1, ← h3, ← h2]
  constructor
  · intro h; rw [h]; exact ⟨rfl, rfl⟩
  · rintro ⟨h, h'⟩; omega

theorem mem_submasks (m r : Nat) : r ∈ submasks m ↔ r &&& m = r := by
  induction m using Nat.strongRecOn generalizing r with
  | _ m ih =>
    rw [submasks]
    by_cases h : m = 0
    · subst h; simp [eq_comm]
    · rw [if_neg h, List.mem_flatMap, and_half, ← ih (m / 2) (by omega)]
      rcases Nat.mod_two_eq_zero_or_one m with e | e
      · rw [e]
        simp only [if_neg (show ¬ (0 : Nat) = 1 by decide), List.mem_singleton]
        constructor
        · rintro ⟨a, ha, rfl⟩
          rw [show 2 * a / 2 = a by omega]
          exact ⟨ha, by omega⟩
        · rintro ⟨ha, hb⟩
          exact ⟨_, ha, by omega⟩
      · rw [e]
        simp only [if_pos, List.mem_cons, List.not_mem_nil, or_false]
        constructor
        · rintro ⟨a, ha, rfl | rfl⟩
          · rw [show 2 * a / 2 = a by omega]; exact ⟨ha, by omega⟩
          · rw [show (2 * a + 1) / 2 = a by omega]; exact ⟨ha, by omega⟩
        · rintro ⟨ha, hb⟩
          exact ⟨_, ha, by omega⟩

theorem submasks_nodup (m : Nat) : (submasks m).Nodup := by
  induction m using Nat.strongRecOn with
  | _ m ih =>
    rw [submasks]
    by_cases h : m = 0
    · rw [if_pos h]; simp
    · rw [if_neg h, List.nodup_flatMap]
      refine ⟨fun r _ => ?_, (ih (m / 2) (by omega)).imp fun {a b} hab => ?_⟩
      · split <;> simp
      · intro x hx hy
        apply hab
        dsimp only at hx hy
        split at hx
        · rw [if_pos (by assumption)] at hy
          simp at hx hy
          omega
        · rw [if_neg (by assumption)] at hy
          simp at hx hy
          omega

/-- An even pass computes `2 ^ ones (R - 1)` rows. -/
theorem mask_even_length {R : Nat} (hR : 0 < R) (hR' : R < 2 ^ 63) (τ : Nat) (hτ : τ % 2 = 0) :
    (Order.mask R τ).length = 2 ^ ones (R - 1) := by
  obtain ⟨e, -, hn, -⟩ := mask_pow hR hR' τ
  rw [← submasks_length]
  refine List.Perm.length_eq ((List.perm_ext_iff_of_nodup hn (submasks_nodup _)).2 fun r => ?_)
  rw [mem_submasks]
  exact ⟨mask_submask τ r, even_visits hR τ hτ r⟩

/-- No pass computes more. -/
theorem mask_length_le {R : Nat} (hR : 0 < R) (hR' : R < 2 ^ 63) (τ : Nat) : (Order.mask R τ).length ≤ 2 ^ ones (R - 1) := by
  obtain ⟨e, -, hn, -⟩ := mask_pow hR hR' τ
  rw [← submasks_length]
  exact (hn.subperm fun r hr => (mem_submasks _ _).2 (mask_submask τ r hr)).length_le

/-- When an odd pass is a single row operation. -/
theorem mask_odd_one {R : Nat} (hR : 0 < R) (hR' : R < 2 ^ 63) (τ : Nat) (hτ : τ % 2 = 1) :
    (Order.mask R τ).length = 1 ↔ (R / 2 - 1) &&& (R - 1) = 0 := by
  obtain ⟨e, hl, -, he⟩ := mask_pow hR hR' τ
  have h1 := he 1
  rw [Function.iterate_one, maskNext, if_pos hτ, Nat.zero_add] at h1
  rw [hl, h1, Nat.dvd_one]

/-- All odd passes compute the same rows, and all even ones. -/
theorem mask_parity (R : Nat) {τ τ' : Nat} (h : τ % 2 = τ' % 2) : Order.mask R τ = Order.mask R τ' := by
  unfold Order.mask
  have : maskNext R τ = maskNext R τ' := by funext x; unfold maskNext; rw [h]
  rw [this]

end Proofs.Lyra2

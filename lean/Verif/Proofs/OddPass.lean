import Verif.Proofs.Counts
import Mathlib.Algebra.Order.Ring.Nat
import Mathlib.Algebra.Ring.Parity

/-! The number of rows that an odd pass of the wandering phase computes, exactly. -/

namespace Proofs.Lyra2
open Spec Spec.Lyra2

section
variable (s m : Nat)

/-- Bit `i` as a number. -/
def bit (x i : Nat) : Nat := x / 2 ^ i % 2

theorem bit_lt (x i : Nat) : bit x i < 2 := Nat.mod_lt _ (by decide)

theorem bit_testBit (x i : Nat) : bit x i = if x.testBit i then 1 else 0 := by
  rw [bit, Nat.testBit_eq_decide_div_mod_eq]
  rcases Nat.mod_two_eq_zero_or_one (x / 2 ^ i) with e | e <;> rw [e] <;> rfl

/-- The carry into bit `i` when the step is added to the row after `n` steps. -/
def carry (i n : Nat) : Nat := (at_ s m n % 2 ^ i + s % 2 ^ i) / 2 ^ i

theorem sum_div (x i : Nat) : (x % 2 ^ (i + 1) + s % 2 ^ (i + 1)) / 2 ^ i = (x % 2 ^ i + s % 2 ^ i) / 2 ^ i + bit x i + bit s i := by
  have hp : 0 < 2 ^ i := Nat.two_pow_pos i
  rw [Nat.mod_pow_succ, Nat.mod_pow_succ (x := s), bit, bit,
    show x % 2 ^ i + 2 ^ i * (x / 2 ^ i % 2) + (s % 2 ^ i + 2 ^ i * (s / 2 ^ i % 2)) =
      x % 2 ^ i + s % 2 ^ i + 2 ^ i * (x / 2 ^ i % 2 + s / 2 ^ i % 2) by ring,
    Nat.add_mul_div_left _ _ hp]
  omega

theorem carry_zero (n : Nat) : carry s m 0 n = 0 := by simp [carry, Nat.mod_one]

theorem carry_succ (i n : Nat) : carry s m (i + 1) n = (carry s m i n + bit (at_ s m n) i + bit s i) / 2 := by
  rw [carry, carry, ← sum_div, Nat.div_div_eq_div_mul, ← pow_succ]

theorem bit_at_zero (i : Nat) : bit (at_ s m 0) i = 0 := by simp [bit, at_]

theorem bit_at_succ (i n : Nat) :
    bit (at_ s m (n + 1)) i = if m.testBit i then (carry s m i n + bit (at_ s m n) i + bit s i) % 2 else 0 := by
  have h : (at_ s m n + s).testBit i = decide ((carry s m i n + bit (at_ s m n) i + bit s i) % 2 = 1) := by
    rw [carry, ← sum_div, ← testBit_low, Nat.add_mod, testBit_low, Nat.testBit_eq_decide_div_mod_eq]
  rw [at_succ, bit_testBit, Nat.testBit_and, h]
  rcases Nat.mod_two_eq_zero_or_one (carry s m i n + bit (at_ s m n) i + bit s i) with e | e <;> rw [e] <;> cases m.testBit i <;> rfl

/-- The number of carries into bit `i` during the first `n` steps. -/
def carries (i : Nat) : Nat → Nat
  | 0 => 0
  | n + 1 => carries i n + carry s m i n

theorem carries_zero (n : Nat) : carries s m 0 n = 0 := by
  induction n with
  | zero => rfl
  | succ n ih => rw [carries, ih, carry_zero]

/-- Where the mask has a one, the bit and the carries out of it are a division by two with remainder. -/
theorem carries_one (i n : Nat) (hm : m.testBit i = true) :
    2 * carries s m (i + 1) n + bit (at_ s m n) i = carries s m i n + n * bit s i := by
  induction n with
  | zero => rw [bit_at_zero]; simp [carries]
  | succ n ih =>
    rw [carries, carries, carry_succ, bit_at_succ, if_pos hm]
    have := bit_lt (at_ s m n) i
    rw [Nat.add_mul, Nat.one_mul]
    omega

theorem carry_le (i n : Nat) : carry s m i n ≤ 1 := by
  induction i with
  | zero => rw [carry_zero]; exact Nat.zero_le _
  | succ i ih =>
    rw [carry_succ]
    have := bit_lt (at_ s m n) i
    have := bit_lt s i
    omega

theorem bit_at_mask (i n : Nat) (hm : m.testBit i = false) : bit (at_ s m n) i = 0 := by
  cases n with
  | zero => exact bit_at_zero _ _ _
  | succ n => rw [bit_at_succ, hm]; rfl

/-- Where the mask has a zero, the carries go on if the step has a one there, and end otherwise. -/
theorem carries_other (i n : Nat) (hm : m.testBit i = false) :
    carries s m (i + 1) n = if s.testBit i then carries s m i n else 0 := by
  induction n with
  | zero => cases s.testBit i <;> rfl
  | succ n ih =>
    have h1 := carry_le s m i n
    rw [carries, ih, carries, carry_succ, bit_at_mask s m i n hm, bit_testBit s]
    cases s.testBit i
    · simp only [Bool.false_eq_true, if_false]; omega
    · simp only [if_true]; omega

/-- What the lower bits do: `c` is 0 if there are no carries, otherwise they are periodic with `2 ^ c` steps, an odd number of them in
a period. -/
def Chain (i c : Nat) : Prop :=
  if c = 0 then ∀ n, carries s m i n = 0 else ∃ K, K % 2 = 1 ∧ ∀ n, carries s m i (n + 2 ^ c) = carries s m i n + K

/-- From bit `i` to the next one. -/
def chainNext (one next : Bool) (c : Nat) : Nat :=
  match one, next with
  | true, true => c + 1
  | true, false => if c = 0 then 0 else c + 1
  | false, true => c
  | false, false => 0

theorem Chain.next {i c : Nat} (h : Chain s m i c) : Chain s m (i + 1) (chainNext (m.testBit i) (s.testBit i) c) := by
  cases hm : m.testBit i with
  | false =>
    cases hs : s.testBit i with
    | false =>
      rw [chainNext, Chain, if_pos rfl]
      intro n
      rw [carries_other s m i n hm, hs]; rfl
    | true =>
      rw [chainNext]
      have e : ∀ n, carries s m (i + 1) n = carries s m i n := fun n => by rw [carries_other s m i n hm, hs]; rfl
      unfold Chain at h ⊢
      simp only [e]
      exact h
  | true =>
    have key : ∀ {c : Nat}, 0 < c → Chain s m i c → Chain s m (i + 1) (c + 1) := by
      intro c hc h
      rw [Chain, if_neg (by omega)] at h
      obtain ⟨K, hK, h⟩ := h
      rw [Chain, if_neg (by omega)]
      have h2 : 2 ^ c % 2 = 0 := by
        obtain ⟨c, rfl⟩ : ∃ d, c = d + 1 := ⟨c - 1, by omega⟩
        rw [pow_succ]; omega
      refine ⟨2 ^ c * bit s i + K, ?_, fun n => ?_⟩
      · rw [Nat.add_mod, Nat.mul_mod, h2, Nat.zero_mul, Nat.zero_mod, Nat.zero_add, hK]
      have e1 := carries_one s m i n hm
      have e2 := carries_one s m i (n + 2 ^ (c + 1)) hm
      have e3 : carries s m i (n + 2 ^ (c + 1)) = carries s m i n + 2 * K := by
        rw [pow_succ, show n + 2 ^ c * 2 = n + 2 ^ c + 2 ^ c by ring, h, h]; ring
      rw [e3, show (n + 2 ^ (c + 1)) * bit s i = n * bit s i + 2 * (2 ^ c * bit s i) by ring] at e2
      have := bit_lt (at_ s m n) i
      have := bit_lt (at_ s m (n + 2 ^ (c + 1))) i
      omega
    by_cases hc : c = 0
    · subst hc
      rw [Chain, if_pos rfl] at h
      have e : ∀ n, 2 * carries s m (i + 1) n + bit (at_ s m n) i = n * bit s i := fun n => by
        rw [carries_one s m i n hm, h, Nat.zero_add]
      cases hs : s.testBit i with
      | false =>
        rw [chainNext, if_pos rfl, Chain, if_pos rfl]
        intro n
        have := e n
        rw [bit_testBit s, hs] at this
        simp only [Bool.false_eq_true, if_false] at this
        omega
      | true =>
        rw [chainNext, Chain, if_neg (by omega)]
        refine ⟨1, rfl, fun n => ?_⟩
        have e1 := e n
        have e2 := e (n + 2 ^ (0 + 1))
        rw [bit_testBit s, hs] at e1 e2
        simp only [if_true] at e1 e2
        have := bit_lt (at_ s m n) i
        have := bit_lt (at_ s m (n + 2 ^ (0 + 1))) i
        omega
    · have : chainNext true (s.testBit i) c = c + 1 := by
        cases s.testBit i
        · exact if_neg hc
        · rfl
      rw [this]
      exact key (by omega) h

theorem Chain.multiple {i c : Nat} (h : Chain s m i c) (hc : 0 < c) :
    ∃ K, K % 2 = 1 ∧ ∀ q, carries s m i (2 ^ c * q) = q * K := by
  rw [Chain, if_neg (by omega)] at h
  obtain ⟨K, hK, h⟩ := h
  refine ⟨K, hK, fun q => ?_⟩
  induction q with
  | zero => simp [carries]
  | succ q ih => rw [Nat.mul_add, Nat.mul_one, h, ih, Nat.add_mul, Nat.one_mul]

/-- The chain and the time after which the lower bits come back to 0, below bit `i`. -/
def chains (i : Nat) : Nat × Nat :=
  (List.range i).foldl (fun x j => (chainNext (m.testBit j) (s.testBit j) x.1, max x.2 (chainNext (m.testBit j) (s.testBit j) x.1))) (0, 0)

theorem chains_succ (i : Nat) : chains s m (i + 1) =
    (chainNext (m.testBit i) (s.testBit i) (chains s m i).1, max (chains s m i).2 (chainNext (m.testBit i) (s.testBit i) (chains s m i).1)) := by
  rw [chains, List.range_succ, List.foldl_append]; rfl

theorem chains_chain (i : Nat) : Chain s m i (chains s m i).1 := by
  induction i with
  | zero =>
    show Chain s m 0 0
    rw [Chain, if_pos rfl]
    exact carries_zero s m
  | succ i ih => rw [chains_succ]; exact ih.next

theorem chains_le (i : Nat) : (chains s m i).1 ≤ (chains s m i).2 := by
  cases i with
  | zero => exact Nat.le_refl _
  | succ i => rw [chains_succ]; exact Nat.le_max_right _ _

/-- The lower bits are all 0 exactly after multiples of `2 ^ e` steps. -/
theorem chains_period (i : Nat) : ∀ n, at_ s m n % 2 ^ i = 0 ↔ 2 ^ (chains s m i).2 ∣ n := by
  induction i with
  | zero => intro n; simp [Nat.mod_one, chains]
  | succ i ih =>
    have hch := chains_chain s m i
    have hle := chains_le s m i
    intro n
    rw [chains_succ]
    generalize (chains s m i).1 = c at *
    generalize (chains s m i).2 = e at *
    have hz : at_ s m n % 2 ^ (i + 1) = 0 ↔ at_ s m n % 2 ^ i = 0 ∧ bit (at_ s m n) i = 0 := by
      rw [zero_iff, bit_testBit]
      cases (at_ s m n).testBit i <;> simp
    rw [hz, ih]
    cases hm : m.testBit i with
    | false =>
      have : max e (chainNext false (s.testBit i) c) = e := by
        cases s.testBit i
        · exact Nat.max_eq_left (Nat.zero_le _)
        · exact Nat.max_eq_left hle
      rw [this, and_iff_left (bit_at_mask s m i n hm)]
    | true =>
      have hb := carries_one s m i n hm
      have hlt := bit_lt (at_ s m n) i
      by_cases hc : c = 0
      · subst hc
        rw [Chain, if_pos rfl] at hch
        rw [hch, bit_testBit s, Nat.zero_add] at hb
        cases hs : s.testBit i with
        | false =>
          rw [hs] at hb
          simp only [Bool.false_eq_true, if_false] at hb
          rw [chainNext, if_pos rfl, Nat.max_eq_left (Nat.zero_le _), and_iff_left (by omega)]
        | true =>
          rw [hs] at hb
          simp only [if_true] at hb
          have h2 : bit (at_ s m n) i = 0 ↔ 2 ∣ n := by omega
          rw [chainNext, h2]
          by_cases he : e = 0
          · subst he; simp
          · rw [Nat.max_eq_left (by omega), and_iff_left_of_imp]
            intro hd
            exact Dvd.dvd.trans (dvd_pow_self 2 he) hd
      · obtain ⟨K, hK, hq⟩ := hch.multiple s m (by omega)
        have hn : chainNext true (s.testBit i) c = c + 1 := by
          cases s.testBit i
          · exact if_neg hc
          · rfl
        rw [hn]
        have hbit : ∀ q, n = 2 ^ c * q → (bit (at_ s m n) i = 0 ↔ 2 ∣ q) := by
          intro q h
          have h2 : 2 ^ c * q * bit s i % 2 = 0 := by
            obtain ⟨d, rfl⟩ : ∃ d, c = d + 1 := ⟨c - 1, by omega⟩
            rw [show 2 ^ (d + 1) * q * bit s i = 2 * (2 ^ d * q * bit s i) by ring]; omega
          have h3 : q * K % 2 = q % 2 := by rw [Nat.mul_mod, hK, Nat.mul_one, Nat.mod_mod]
          rw [h, hq] at hb
          rw [← h] at hb h2
          omega
        by_cases he : e = c
        · subst he
          rw [Nat.max_eq_right (by omega)]
          constructor
          · rintro ⟨⟨q, hq'⟩, h⟩
            obtain ⟨r, rfl⟩ := (hbit q hq').1 h
            exact ⟨r, by rw [hq']; ring⟩
          · rintro ⟨r, hr⟩
            have hr' : n = 2 ^ e * (2 * r) := by rw [hr]; ring
            exact ⟨⟨2 * r, hr'⟩, (hbit _ hr').2 ⟨r, rfl⟩⟩
        · rw [Nat.max_eq_left (by omega), and_iff_left_of_imp]
          rintro ⟨r, hr⟩
          have hr' : n = 2 ^ c * (2 ^ (e - c) * r) := by rw [hr, ← Nat.mul_assoc, ← pow_add, Nat.add_sub_cancel' hle]
          refine (hbit _ hr').2 (Dvd.dvd.mul_right (dvd_pow_self 2 (by omega)) _)

theorem at_zero_chains (k : Nat) (hk : m < 2 ^ k) : ∀ n, at_ s m n = 0 ↔ 2 ^ (chains s m k).2 ∣ n := by
  intro n
  rw [← chains_period, Nat.mod_eq_of_lt (lt_of_le_of_lt (at_le s m n) hk)]

end

/-- The chain that reaches bit `i` of the mask `m`, for the step of an odd pass: it begins at a one whose successor is a one, counts
the ones, and ends at two adjacent zeros. -/
def maskChain (m : Nat) : Nat → Nat
  | 0 => 0
  | i + 1 => chainNext (m.testBit i) (m.testBit (i + 1)) (maskChain m i)

theorem maskChain_low (m i : Nat) (h : m % 2 ^ i = 0) : maskChain m i = 0 := by
  induction i with
  | zero => rfl
  | succ i ih =>
    obtain ⟨h1, h2⟩ := (zero_iff m i).1 h
    rw [maskChain, h2, ih h1]
    cases m.testBit (i + 1) <;> rfl

/-- In an odd pass the bits of the step are those of the mask, one place up, from the lowest one of the mask on. -/
theorem step_bit (R i : Nat) (h : (R - 1) % 2 ^ (i + 1) ≠ 0) : (R / 2 - 1).testBit i = (R - 1).testBit (i + 1) := by
  rw [Nat.testBit_succ]
  rcases Nat.mod_two_eq_zero_or_one R with e | e
  · congr 1; omega
  · have hq : (R - 1) / 2 = R / 2 := by omega
    have hm : R - 1 = 2 * (R / 2) := by omega
    rw [hq]
    rw [hm, pow_succ, Nat.mul_comm (2 ^ i), Nat.mul_mod_mul_left] at h
    generalize R / 2 = q at *
    have h' : q % 2 ^ i ≠ 0 := fun hc => h (by rw [hc])
    have hp : 0 < 2 ^ i := Nat.two_pow_pos i
    have : (q - 1) / 2 ^ i = q / 2 ^ i := by
      have h1 := Nat.div_add_mod q (2 ^ i)
      have h2 := Nat.mod_lt q hp
      rw [show q - 1 = (q % 2 ^ i - 1) + 2 ^ i * (q / 2 ^ i) by omega, Nat.add_mul_div_left _ _ hp, Nat.div_eq_of_lt (by omega), Nat.zero_add]
    rw [Nat.testBit_eq_decide_div_mod_eq, Nat.testBit_eq_decide_div_mod_eq, this]

theorem chains_odd (R i : Nat) : (chains (R / 2 - 1) (R - 1) i).1 = maskChain (R - 1) i := by
  induction i with
  | zero => rfl
  | succ i ih =>
    rw [chains_succ, maskChain, ih]
    by_cases h : (R - 1) % 2 ^ (i + 1) = 0
    · obtain ⟨h1, h2⟩ := (zero_iff _ i).1 h
      rw [h2, maskChain_low _ _ h1]
      cases (R / 2 - 1).testBit i <;> cases (R - 1).testBit (i + 1) <;> rfl
    · rw [step_bit R i h]

theorem chains_odd_max (R k : Nat) : (chains (R / 2 - 1) (R - 1) k).2 = ((List.range (k + 1)).map (maskChain (R - 1))).foldl max 0 := by
  induction k with
  | zero => rfl
  | succ k ih =>
    rw [List.range_succ, List.map_append, List.foldl_append, ← ih, chains_succ]
    show max _ (chainNext _ _ _) = max _ (maskChain (R - 1) (k + 1))
    rw [← chains_odd, chains_succ]

/-- The length of an odd pass. -/
theorem mask_odd_length {R : Nat} (hR : 0 < R) (hR' : R < 2 ^ 63) (τ : Nat) (hτ : τ % 2 = 1) :
    (Order.mask R τ).length = 2 ^ ((List.range 65).map (maskChain (R - 1))).foldl max 0 := by
  obtain ⟨e, hl, -, he⟩ := mask_pow hR hR' τ
  have hz : ∀ n, (maskNext R τ)^[n] 0 = 0 ↔ 2 ^ ((List.range 65).map (maskChain (R - 1))).foldl max 0 ∣ n := fun n => by
    rw [maskNext_at _ _ _ hR, stepNat, if_pos hτ, at_zero_chains _ _ 64 (by omega), chains_odd_max]
  rw [hl]
  exact Nat.dvd_antisymm ((he _).1 ((hz _).2 (dvd_refl _))) ((hz _).1 ((he _).2 (dvd_refl _)))

end Proofs.Lyra2

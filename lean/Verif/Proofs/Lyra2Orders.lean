import Verif.Proofs.Lyra2Total

/-! Row orders of the wandering phase. -/

namespace Proofs.Lyra2
open Spec Spec.Lyra2

theorem orbit_congr {next next' : Nat → Nat} {R : Nat} (h : ∀ x, x < R → next x = next' x) (hR : ∀ x, x < R → next x < R)
    (fuel x : Nat) (hx : x < R) : orbit next fuel x = orbit next' fuel x := by
  induction fuel generalizing x with
  | zero => rfl
  | succ n ih =>
    unfold orbit
    rw [← h x hx, ih _ (hR x hx)]

/-- An orbit, explicitly. -/
theorem orbit_eq {next : Nat → Nat} (fuel n x : Nat) (hn : 1 ≤ n) (hf : n ≤ fuel) (hret : next^[n] x = 0)
    (hne : ∀ i, 0 < i → i < n → next^[i] x ≠ 0) : orbit next fuel x = (List.range n).map fun i => next^[i] x := by
  induction fuel generalizing n x with
  | zero => omega
  | succ fuel ih =>
    unfold orbit
    obtain ⟨n, rfl⟩ : ∃ n', n = n' + 1 := ⟨n - 1, by omega⟩
    rw [Function.iterate_succ_apply] at hret
    rw [List.range_succ_eq_map, List.map_cons, List.map_map]
    by_cases h0 : n = 0
    · subst h0
      rw [Function.iterate_zero_apply] at hret
      rw [if_pos hret]; rfl
    · have h1 := hne 1 (by omega) (by omega)
      rw [Function.iterate_one] at h1
      rw [if_neg h1, ih n (next x) (by omega) (by omega) hret fun i h2 h3 => by
        have := hne (i + 1) (by omega) (by omega)
        rwa [Function.iterate_succ_apply] at this]
      rfl

theorem maskNext_eq_mod {j : Nat} (hj : 1 ≤ j) (τ x : Nat) (hx : x < 2 ^ j) :
    maskNext (2 ^ j) τ x = modNext (2 ^ j) τ x := by
  unfold maskNext modNext
  have hp : 2 ^ 1 ≤ 2 ^ j := Nat.pow_le_pow_right (by decide) hj
  split
  · rw [Nat.and_two_pow_sub_one_eq_mod]
  · split
    · rename_i h; subst h; rw [Nat.zero_add, Nat.mod_eq_of_lt (by omega)]
    · rw [Nat.and_two_pow_sub_one_eq_mod, show x + (2 ^ j - 1) = x - 1 + 2 ^ j by omega, Nat.add_mod_right]

/-- For powers of two the bit mask and the remainder give the same order. -/
theorem mask_eq_reference {j : Nat} (hj : 1 ≤ j) : Order.mask (2 ^ j) = Order.reference (2 ^ j) := by
  funext τ
  have hp : 0 < 2 ^ j := by positivity
  exact orbit_congr (fun x hx => maskNext_eq_mod hj τ x hx) (fun x _ => maskNext_lt hp τ x) _ _ hp

theorem pick_eq_reference (j : Nat) : Pick.mask (2 ^ j) = Pick.reference (2 ^ j) := by
  funext s i
  unfold Pick.mask Pick.reference
  rw [Nat.and_two_pow_sub_one_eq_mod]

theorem modNext_odd (R τ i : Nat) (h : τ % 2 = 1) : (modNext R τ)^[i] 0 = i * (R / 2 - 1) % R := by
  induction i with
  | zero => simp
  | succ i ih =>
    rw [Function.iterate_succ_apply', ih]
    unfold modNext
    rw [if_pos h, Nat.mod_add_mod, Nat.succ_mul]

theorem modNext_even (R τ i : Nat) (h : τ % 2 = 0) : (modNext R τ)^[i] 0 = i * (R - 1) % R := by
  induction i with
  | zero => simp
  | succ i ih =>
    rw [Function.iterate_succ_apply', ih]
    unfold modNext
    rw [if_neg (by omega), Nat.mod_add_mod, Nat.succ_mul]

theorem mul_pred_mod {R i : Nat} (hi : i ≤ R) (hR : 0 < R) : i * (R - 1) % R = (R - i) % R := by
  have e : i * (R - 1) + i = i * R := by
    obtain ⟨r, rfl⟩ : ∃ r, R = r + 1 := ⟨R - 1, by omega⟩
    rw [Nat.add_sub_cancel, Nat.mul_succ]
  have : (i * (R - 1) + i) % R = ((R - i) + i) % R := by
    rw [e, Nat.sub_add_cancel hi, Nat.mul_mod_left, Nat.mod_self]
  exact Nat.ModEq.add_right_cancel' i this

/-- Row orders for powers of two, explicitly. -/
theorem mask_odd {j : Nat} (hj : 2 ≤ j) (τ : Nat) (h : τ % 2 = 1) :
    Order.mask (2 ^ j) τ = (List.range (2 ^ j)).map fun i => i * (2 ^ j / 2 - 1) % 2 ^ j := by
  have hp : 0 < 2 ^ j := by positivity
  have hodd : (2 ^ j / 2 - 1) % 2 = 1 := by
    obtain ⟨i, rfl⟩ : ∃ i, j = i + 2 := ⟨j - 2, by omega⟩
    have : 0 < 2 ^ i := by positivity
    rw [pow_add]; omega
  rw [mask_eq_reference (by omega)]
  unfold Order.reference
  rw [orbit_eq (2 ^ j) (2 ^ j) 0 hp le_rfl]
  · congr 1; funext i; exact modNext_odd _ _ _ h
  · rw [modNext_odd _ _ _ h, Nat.mul_mod_right]
  · intro i h1 h2 h0
    rw [modNext_odd _ _ _ h] at h0
    have := odd_mul_inj (t := 2 ^ j / 2 - 1) hodd h2 hp (by rw [h0]; simp)
    omega

theorem mask_even {j : Nat} (hj : 2 ≤ j) (τ : Nat) (h : τ % 2 = 0) :
    Order.mask (2 ^ j) τ = (List.range (2 ^ j)).map fun i => (2 ^ j - i) % 2 ^ j := by
  have hp : 0 < 2 ^ j := by positivity
  rw [mask_eq_reference (by omega)]
  unfold Order.reference
  rw [orbit_eq (2 ^ j) (2 ^ j) 0 hp le_rfl]
  · apply List.map_congr_left
    intro i hi
    rw [modNext_even _ _ _ h, mul_pred_mod (by have := List.mem_range.mp hi; omega) hp]
  · rw [modNext_even _ _ _ h, Nat.mul_mod_right]
  · intro i h1 h2 h0
    rw [modNext_even _ _ _ h, mul_pred_mod (by omega) hp, Nat.mod_eq_of_lt (by omega)] at h0
    omega

/-- Each row exactly once. -/
theorem mask_perm {j : Nat} (hj : 2 ≤ j) (τ : Nat) : (Order.mask (2 ^ j) τ).Perm (List.range (2 ^ j)) := by
  have hp : 0 < 2 ^ j := by positivity
  have hodd : (2 ^ j / 2 - 1) % 2 = 1 := by
    obtain ⟨i, rfl⟩ : ∃ i, j = i + 2 := ⟨j - 2, by omega⟩
    have : 0 < 2 ^ i := by positivity
    rw [pow_add]; omega
  have key : ∀ g : Nat → Nat, (∀ i, i < 2 ^ j → g i < 2 ^ j) → (∀ a b, a < 2 ^ j → b < 2 ^ j → g a = g b → a = b) →
      ((List.range (2 ^ j)).map g).Perm (List.range (2 ^ j)) := by
    intro g h1 h2
    have hnd : ((List.range (2 ^ j)).map g).Nodup := by
      rw [List.nodup_map_iff_inj_on List.nodup_range]
      exact fun a ha b hb e => h2 a b (List.mem_range.mp ha) (List.mem_range.mp hb) e
    refine List.Subperm.perm_of_length_le (List.subperm_of_subset hnd ?_) (by simp)
    intro x hx
    obtain ⟨i, hi, rfl⟩ := List.mem_map.mp hx
    exact List.mem_range.mpr (h1 i (List.mem_range.mp hi))
  by_cases h : τ % 2 = 1
  · rw [mask_odd hj τ h]
    exact key _ (fun i _ => Nat.mod_lt _ hp) fun a b ha hb e => odd_mul_inj hodd ha hb e
  · rw [mask_even hj τ (by omega)]
    refine key _ (fun i _ => Nat.mod_lt _ hp) fun a b ha hb e => ?_
    by_cases h1 : a = 0
    · subst h1
      by_cases h2 : b = 0
      · exact h2.symm
      · rw [Nat.sub_zero, Nat.mod_self, Nat.mod_eq_of_lt (by omega)] at e; omega
    · by_cases h2 : b = 0
      · subst h2; rw [Nat.sub_zero, Nat.mod_self, Nat.mod_eq_of_lt (by omega)] at e; omega
      · rw [Nat.mod_eq_of_lt (by omega), Nat.mod_eq_of_lt (by omega)] at e; omega

/-! ## Other row counts -/

/-- Rows that come up are submasks of `R - 1`. -/
theorem mask_submask {R : Nat} (τ r : Nat) (h : r ∈ Order.mask R τ) : r &&& (R - 1) = r := by
  unfold Order.mask at h
  have gen : ∀ fuel x, x &&& (R - 1) = x → ∀ r ∈ orbit (maskNext R τ) fuel x, r &&& (R - 1) = r := by
    intro fuel
    induction fuel with
    | zero => simp [orbit]
    | succ n ih =>
      intro x hx r hr
      unfold orbit at hr
      rcases List.mem_cons.mp hr with rfl | hr
      · exact hx
      · split at hr
        · simp at hr
        · refine ih _ ?_ r hr
          unfold maskNext
          split
          · rw [Nat.and_assoc, Nat.and_self]
          · split
            · exact Nat.and_self _
            · rw [Nat.and_assoc, Nat.and_self]
  exact gen R 0 (Nat.zero_and _) r h

theorem pick_submask {R : Nat} (s : Sponge) (w : Blake2b.W) : (Pick.mask R s w).1 &&& (R - 1) = (Pick.mask R s w).1 := by
  unfold Pick.mask; rw [Nat.and_assoc, Nat.and_self]

theorem pick3_submask {R : Nat} (s : Sponge) (w : Blake2b.W) : (Pick.rev3 R s w).1 &&& (R - 1) = (Pick.rev3 R s w).1 := by
  unfold Pick.rev3; dsimp only; rw [Nat.and_assoc, Nat.and_self]

/-- Counting down and masking finds the next smaller submask. -/
theorem submask_pred (x y m : Nat) (hx : x &&& m = x) (hy : y &&& m = y) (h : y < x) : y ≤ (x - 1) &&& m := by
  induction x using Nat.strongRecOn generalizing y m with
  | ind x ih =>
    have ex := congrArg (· / 2) hx
    have ey := congrArg (· / 2) hy
    have ey2 := congrArg (· % 2) hy
    simp only [Nat.and_div_two] at ex ey
    have hmod : ∀ a b : Nat, (a &&& b) % 2 = a % 2 * (b % 2) := by
      intro a b
      have h1 : (a &&& b) % 2 = a % 2 &&& b % 2 := Nat.and_mod_two_pow (n := 1)
      rw [h1]
      rcases Nat.mod_two_eq_zero_or_one a with ha | ha <;> rcases Nat.mod_two_eq_zero_or_one b with hb | hb <;>
        rw [ha, hb] <;> rfl
    have e1 : ((x - 1) &&& m) / 2 = (x - 1) / 2 &&& m / 2 := Nat.and_div_two ..
    have e2 := hmod (x - 1) m
    have e3 := hmod y m
    rw [hy] at e3
    by_cases hodd : x % 2 = 1
    · have : (x - 1) / 2 = x / 2 := by omega
      rw [this, ex] at e1
      omega
    · have h1 : (x - 1) / 2 = x / 2 - 1 := by omega
      rw [h1] at e1
      have h2 : (x - 1) % 2 = 1 := by omega
      rw [h2, Nat.one_mul] at e2
      by_cases hlt : y / 2 < x / 2
      · have := ih (x / 2) (by omega) (y / 2) (m / 2) ex ey hlt
        rw [← e1] at this
        have hb : y % 2 ≤ m % 2 := by
          rw [e3]; calc y % 2 * (m % 2) ≤ 1 * (m % 2) := Nat.mul_le_mul_right _ (by omega)
            _ = m % 2 := Nat.one_mul _
        omega
      · omega

/-- Even passes visit every submask of `R - 1`. -/
theorem even_visits {R : Nat} (hR : 0 < R) (τ : Nat) (h : τ % 2 = 0) (r : Nat) (hr : r &&& (R - 1) = r) :
    r ∈ Order.mask R τ := by
  have hrR : r ≤ R - 1 := by rw [← hr]; exact Nat.and_le_right
  -- from any submask above or at `r`, the rest of the orbit reaches `r`
  have gen : ∀ fuel x, x &&& (R - 1) = x → 0 < r → r ≤ x → x ≤ fuel → r ∈ orbit (maskNext R τ) fuel x := by
    intro fuel
    induction fuel with
    | zero => intro x _ h1 h2 h3; omega
    | succ n ih =>
      intro x hx h1 h2 h3
      rw [orbit]
      by_cases e : x = r
      · subst e; exact List.mem_cons_self
      · refine List.mem_cons_of_mem _ ?_
        have hn : maskNext R τ x = (x - 1) &&& (R - 1) := by
          unfold maskNext; rw [if_neg (by omega), if_neg (by omega)]
        have hle := submask_pred x r (R - 1) hx hr (by omega)
        rw [hn, if_neg (by omega)]
        have hle' : (x - 1) &&& (R - 1) ≤ x - 1 := Nat.and_le_left
        exact ih _ (by rw [Nat.and_assoc, Nat.and_self]) h1 hle (by omega)
  unfold Order.mask
  obtain ⟨R', rfl⟩ : ∃ R', R = R' + 1 := ⟨R - 1, by omega⟩
  rw [orbit]
  by_cases h0 : r = 0
  · subst h0; exact List.mem_cons_self
  · refine List.mem_cons_of_mem _ ?_
    have hn : maskNext (R' + 1) τ 0 = R' := by
      unfold maskNext; rw [if_neg (by omega), if_pos rfl]; rfl
    rw [hn, if_neg (by omega)]
    exact gen R' R' (Nat.and_self _) (by omega) hrR le_rfl

end Proofs.Lyra2

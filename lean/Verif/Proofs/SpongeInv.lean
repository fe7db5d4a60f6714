import Verif.Proofs.Lyra2Main

/-! The sponge transformation is a bijection; absorbing is injective. -/

namespace Proofs.Sponge
open Rust Rust.Res Model.Lyra2 Spec Spec.Lyra2

/-- The inverse of `g`. -/
def gInv (a b c d : U64) : U64 × U64 × U64 × U64 :=
  let b := rotr64 b 1 ^^^ c
  let c := c - d
  let d := rotr64 d 48 ^^^ a
  let a := a - b
  let b := rotr64 b 40 ^^^ c
  let c := c - d
  let d := rotr64 d 32 ^^^ a
  let a := a - b
  (a, b, c, d)

theorem unrot63 (w : U64) : rotr64 (rotr64 w 63) 1 = w := rotr64_rotr64 w (c := 63) (by decide) (by decide)
theorem unrot16 (w : U64) : rotr64 (rotr64 w 16) 48 = w := rotr64_rotr64 w (c := 16) (by decide) (by decide)
theorem unrot24 (w : U64) : rotr64 (rotr64 w 24) 40 = w := rotr64_rotr64 w (c := 24) (by decide) (by decide)
theorem unrot32 (w : U64) : rotr64 (rotr64 w 32) 32 = w := rotr64_rotr64 w (c := 32) (by decide) (by decide)
theorem unrot1 (w : U64) : rotr64 (rotr64 w 1) 63 = w := rotr64_rotr64 w (c := 1) (by decide) (by decide)
theorem unrot48 (w : U64) : rotr64 (rotr64 w 48) 16 = w := rotr64_rotr64 w (c := 48) (by decide) (by decide)
theorem unrot40 (w : U64) : rotr64 (rotr64 w 40) 24 = w := rotr64_rotr64 w (c := 40) (by decide) (by decide)

theorem xor_cancel (x y : U64) : (x ^^^ y) ^^^ y = x := by rw [BitVec.xor_assoc, BitVec.xor_self, BitVec.xor_zero]
theorem add_cancel (x y : U64) : (x + y) - y = x := by grind
theorem sub_cancel (x y : U64) : (x - y) + y = x := by grind

theorem gInv_g (a b c d : U64) :
    gInv (g a b c d).1 (g a b c d).2.1 (g a b c d).2.2.1 (g a b c d).2.2.2 = (a, b, c, d) := by
  simp only [g, gInv, unrot63, unrot16, unrot24, unrot32, xor_cancel, add_cancel]

theorem g_gInv (a b c d : U64) :
    g (gInv a b c d).1 (gInv a b c d).2.1 (gInv a b c d).2.2.1 (gInv a b c d).2.2.2 = (a, b, c, d) := by
  simp only [g, gInv, unrot1, unrot48, unrot40, unrot32, xor_cancel, sub_cancel]

/-- Writes four words. -/
def set4 (v : State) (i j k l : Fin 16) (x : U64 × U64 × U64 × U64) : State :=
  (((v.set i x.1).set j x.2.1).set k x.2.2.1).set l x.2.2.2

/-- The inverse of `gAt`. -/
def gAtInv (v : State) (i j k l : Fin 16) : State := set4 v i j k l (gInv v[i] v[j] v[k] v[l])

structure Distinct (i j k l : Fin 16) : Prop where
  ij : i.val ≠ j.val
  ik : i.val ≠ k.val
  il : i.val ≠ l.val
  jk : j.val ≠ k.val
  jl : j.val ≠ l.val
  kl : k.val ≠ l.val

theorem set4_get (v : State) {i j k l : Fin 16} (h : Distinct i j k l) (x : U64 × U64 × U64 × U64) :
    (set4 v i j k l x)[i] = x.1 ∧ (set4 v i j k l x)[j] = x.2.1 ∧ (set4 v i j k l x)[k] = x.2.2.1 ∧
      (set4 v i j k l x)[l] = x.2.2.2 := by
  obtain ⟨h1, h2, h3, h4, h5, h6⟩ := h
  unfold set4
  simp only [Fin.getElem_fin, Vector.getElem_set]
  refine ⟨?_, ?_, ?_, ?_⟩
  · rw [if_neg (Ne.symm h3), if_neg (Ne.symm h2), if_neg (Ne.symm h1), if_pos trivial]
  · rw [if_neg (Ne.symm h5), if_neg (Ne.symm h4), if_pos trivial]
  · rw [if_neg (Ne.symm h6), if_pos trivial]
  · rw [if_pos trivial]

theorem set4_set4 (v : State) (i j k l : Fin 16) (x : U64 × U64 × U64 × U64) :
    set4 (set4 v i j k l x) i j k l (v[i], v[j], v[k], v[l]) = v := by
  unfold set4
  apply Vector.ext
  intro n hn
  simp only [Vector.getElem_set, Fin.getElem_fin]
  by_cases h4 : l.val = n
  · subst h4; rw [if_pos rfl]
  by_cases h3 : k.val = n
  · subst h3; rw [if_neg h4, if_pos rfl]
  by_cases h2 : j.val = n
  · subst h2; rw [if_neg h4, if_neg h3, if_pos rfl]
  by_cases h1 : i.val = n
  · subst h1; rw [if_neg h4, if_neg h3, if_neg h2, if_pos rfl]
  rw [if_neg h4, if_neg h3, if_neg h2, if_neg h1, if_neg h4, if_neg h3, if_neg h2, if_neg h1]

theorem gAtInv_gAt (v : State) {i j k l : Fin 16} (h : Distinct i j k l) : gAtInv (gAt v i j k l) i j k l = v := by
  have e : gAt v i j k l = set4 v i j k l (g v[i] v[j] v[k] v[l]) := rfl
  obtain ⟨h1, h2, h3, h4⟩ := set4_get v h (g v[i] v[j] v[k] v[l])
  unfold gAtInv
  rw [e, h1, h2, h3, h4, gInv_g, set4_set4]

theorem gAt_gAtInv (v : State) {i j k l : Fin 16} (h : Distinct i j k l) : gAt (gAtInv v i j k l) i j k l = v := by
  have e : ∀ u, gAt u i j k l = set4 u i j k l (g u[i] u[j] u[k] u[l]) := fun _ => rfl
  unfold gAtInv
  obtain ⟨h1, h2, h3, h4⟩ := set4_get v h (gInv v[i] v[j] v[k] v[l])
  rw [e, h1, h2, h3, h4, g_gInv, set4_set4]

theorem gAt_bijective {i j k l : Fin 16} (h : Distinct i j k l) : Function.Bijective (fun v => gAt v i j k l) :=
  Function.bijective_iff_has_inverse.2 ⟨fun v => gAtInv v i j k l, fun v => gAtInv_gAt v h, fun v => gAt_gAtInv v h⟩

theorem round_bijective : Function.Bijective round_lyra := by
  have h1 := gAt_bijective (i := 0) (j := 4) (k := 8) (l := 12) ⟨by decide, by decide, by decide, by decide, by decide, by decide⟩
  have h2 := gAt_bijective (i := 1) (j := 5) (k := 9) (l := 13) ⟨by decide, by decide, by decide, by decide, by decide, by decide⟩
  have h3 := gAt_bijective (i := 2) (j := 6) (k := 10) (l := 14) ⟨by decide, by decide, by decide, by decide, by decide, by decide⟩
  have h4 := gAt_bijective (i := 3) (j := 7) (k := 11) (l := 15) ⟨by decide, by decide, by decide, by decide, by decide, by decide⟩
  have h5 := gAt_bijective (i := 0) (j := 5) (k := 10) (l := 15) ⟨by decide, by decide, by decide, by decide, by decide, by decide⟩
  have h6 := gAt_bijective (i := 1) (j := 6) (k := 11) (l := 12) ⟨by decide, by decide, by decide, by decide, by decide, by decide⟩
  have h7 := gAt_bijective (i := 2) (j := 7) (k := 8) (l := 13) ⟨by decide, by decide, by decide, by decide, by decide, by decide⟩
  have h8 := gAt_bijective (i := 3) (j := 4) (k := 9) (l := 14) ⟨by decide, by decide, by decide, by decide, by decide, by decide⟩
  exact h8.comp (h7.comp (h6.comp (h5.comp (h4.comp (h3.comp (h2.comp h1))))))

theorem reduced_bijective : Function.Bijective reduced_blake2b_lyra := round_bijective

theorem blake2b_bijective : Function.Bijective blake2b_lyra := by
  have h := round_bijective
  exact h.comp (h.comp (h.comp (h.comp (h.comp (h.comp (h.comp (h.comp (h.comp (h.comp (h.comp h))))))))))

theorem round_zero : round_lyra (Vector.replicate 16 0) = Vector.replicate 16 0 := by decide +kernel

theorem blake2b_zero : blake2b_lyra (Vector.replicate 16 0) = Vector.replicate 16 0 := by
  simp only [blake2b_lyra, round_zero]

theorem f_injective : Function.Injective f := by
  have : f = blake2b_lyra := funext fun v => (blake2b_eq v).symm
  rw [this]
  exact blake2b_bijective.1

theorem xorSafe_get (s : Sponge) (b : Vector Blake2b.W 8) (i : Nat) (h : i < 8) : (xorSafe s b)[i] = s[i] ^^^ b[i] := by
  unfold xorSafe
  rw [Vector.getElem_ofFn, dif_pos h]
  rfl

theorem xorSafe_get' (s : Sponge) (b : Vector Blake2b.W 8) (i : Nat) (h : 8 ≤ i) (h' : i < 16) : (xorSafe s b)[i] = s[i] := by
  unfold xorSafe
  rw [Vector.getElem_ofFn, dif_neg (show ¬ i < 8 by omega)]
  rfl

theorem xor_inj (x y z : U64) (h : x ^^^ y = x ^^^ z) : y = z := by
  have := congrArg (x ^^^ ·) h
  simp only [← BitVec.xor_assoc, BitVec.xor_self, BitVec.zero_xor] at this
  exact this

theorem xorSafe_inj (s : Sponge) (b b' : Vector Blake2b.W 8) (h : xorSafe s b = xorSafe s b') : b = b' := by
  apply Vector.ext
  intro i hi
  have := congrArg (fun v : Sponge => v[i]) h
  simp only [xorSafe_get s b i hi, xorSafe_get s b' i hi] at this
  exact xor_inj _ _ _ this

theorem xorSafe_inj_left (s s' : Sponge) (b : Vector Blake2b.W 8) (h : xorSafe s b = xorSafe s' b) : s = s' := by
  apply Vector.ext
  intro i hi
  have := congrArg (fun v : Sponge => v[i]) h
  by_cases h8 : i < 8
  · simp only [xorSafe_get s b i h8, xorSafe_get s' b i h8, BitVec.xor_comm _ b[i]] at this
    exact xor_inj _ _ _ this
  · simp only [xorSafe_get' s b i (by omega) hi, xorSafe_get' s' b i (by omega) hi] at this
    exact this

theorem xorRate_inj (s : Sponge) (b b' : Block) (h : xorRate s b = xorRate s b') : b = b' := by
  apply Vector.ext
  intro i hi
  have := congrArg (fun v : Sponge => v[i]) h
  unfold xorRate at this
  simp only [Vector.getElem_ofFn, dif_pos hi] at this
  exact xor_inj _ _ _ this

/-! ## The input -/

/-- One block of the input is absorbed. -/
def absorb1 (ws : List Blake2b.W) (s : Sponge) (j : Nat) : Sponge :=
  f (xorSafe s (Vector.ofFn fun i => wordAt ws (8 * j + i)))

theorem absorb1_inj {ws ws' : List Blake2b.W} {j : Nat} (h : ∀ i, i < 8 → wordAt ws (8 * j + i) = wordAt ws' (8 * j + i))
    {s s' : Sponge} (e : absorb1 ws s j = absorb1 ws' s' j) : s = s' := by
  unfold absorb1 at e
  have hb : (Vector.ofFn fun i : Fin 8 => wordAt ws (8 * j + i)) = Vector.ofFn fun i : Fin 8 => wordAt ws' (8 * j + i) := by
    apply Vector.ext
    intro i hi
    rw [Vector.getElem_ofFn, Vector.getElem_ofFn]
    exact h i hi
  rw [hb] at e
  exact xorSafe_inj_left _ _ _ (f_injective e)

theorem absorbInput_inj {ws ws' : List Blake2b.W} (h : ∀ i, 8 ≤ i → wordAt ws i = wordAt ws' i) (n : Nat) (hn : 1 ≤ n) (s : Sponge)
    (e : Spec.Lyra2.absorbInput ws n s = Spec.Lyra2.absorbInput ws' n s) (i : Nat) (hi : i < 8) : wordAt ws i = wordAt ws' i := by
  obtain ⟨n, rfl⟩ : ∃ m, n = m + 1 := ⟨n - 1, by omega⟩
  induction n with
  | zero =>
    have e : f (xorSafe s (Vector.ofFn fun i : Fin 8 => wordAt ws (8 * 0 + i))) =
      f (xorSafe s (Vector.ofFn fun i : Fin 8 => wordAt ws' (8 * 0 + i))) := e
    have := congrArg (fun v : Vector Blake2b.W 8 => v[i]) (xorSafe_inj _ _ _ (f_injective e))
    simpa using this
  | succ n ih =>
    refine ih (by omega) ?_
    unfold Spec.Lyra2.absorbInput at e
    rw [List.range_succ, List.foldl_append, List.foldl_append] at e
    exact absorb1_inj (j := n + 1) (fun i hi => h _ (by omega)) e

theorem wordAt_left {a b : List Blake2b.W} {i : Nat} (h : i < a.length) : wordAt (a ++ b) i = wordAt a i := by
  unfold wordAt
  rw [List.getD_eq_getElem?_getD, List.getD_eq_getElem?_getD, List.getElem?_append_left h]

theorem wordAt_right {a b : List Blake2b.W} {i : Nat} (h : a.length ≤ i) : wordAt (a ++ b) i = wordAt b (i - a.length) := by
  unfold wordAt
  rw [List.getD_eq_getElem?_getD, List.getD_eq_getElem?_getD, List.getElem?_append_right h]

end Proofs.Sponge

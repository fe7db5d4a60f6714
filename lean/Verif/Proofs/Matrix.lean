import Verif.Proofs.Sponge

/-! The `Vec<u64>` of the code as a representation of the memory matrix of the specification: reading, absorbing and
writing one block of twelve words. -/

namespace Proofs.Lyra2
open Rust Rust.Res Model.Lyra2 Spec Spec.Lyra2 Proofs.Sponge

/-- Position of the first word of block `(r, c)`. -/
def base (C r c : Nat) : Nat := 12 * (C * r + c)

/-- The array `m` represents the `R x C` matrix `M`. -/
def Rep (R C : Nat) (m : Matrix) (M : Mem) : Prop :=
  m.size = 12 * (R * C) ∧ ∀ r, r < R → ∀ c, c < C → ∀ w : Fin 12, m[base C r c + w]? = some (M r c)[w]

theorem base_lt {R C r c : Nat} (hr : r < R) (hc : c < C) : base C r c + 12 ≤ 12 * (R * C) := by
  unfold base
  have : C * r + C ≤ R * C := by
    calc C * r + C = (r + 1) * C := by ring
      _ ≤ R * C := Nat.mul_le_mul_right _ hr
  omega

theorem base_inj {C r c r' c' : Nat} (hc : c < C) (hc' : c' < C) (h : C * r + c = C * r' + c') : r = r' ∧ c = c' := by
  have hC : 0 < C := by omega
  have h1 : (C * r + c) / C = r := by rw [Nat.mul_add_div hC, Nat.div_eq_of_lt hc]; omega
  have h2 : (C * r' + c') / C = r' := by rw [Nat.mul_add_div hC, Nat.div_eq_of_lt hc']; omega
  have : r = r' := by rw [← h1, ← h2, h]
  subst this
  exact ⟨rfl, by omega⟩

/-- Two blocks are the same or disjoint. -/
theorem base_disjoint (C : Nat) {r c r' c' : Nat} (w : Fin 12) (h : C * r + c ≠ C * r' + c') :
    base C r c + w < base C r' c' ∨ base C r' c' + 12 ≤ base C r c + w := by
  have := w.isLt
  unfold base
  omega

/-- After overwriting the words of one block, the array represents the updated matrix. -/
theorem Rep.put {R C r c : Nat} {m m' : Matrix} {M : Mem} {b : Block} (h : Rep R C m M) (hc : c < C)
    (hs : m'.size = m.size) (hin : ∀ w : Fin 12, m'[base C r c + w]? = some b[w])
    (hout : ∀ i, (i < base C r c ∨ base C r c + 12 ≤ i) → m'[i]? = m[i]?) : Rep R C m' (put M r c b) := by
  refine ⟨by rw [hs, h.1], fun r' hr' c' hc' w => ?_⟩
  unfold Spec.Lyra2.put
  by_cases he : r' = r ∧ c' = c
  · obtain ⟨rfl, rfl⟩ := he
    rw [hin, if_pos ⟨rfl, rfl⟩]
  · rw [if_neg he, ← h.2 r' hr' c' hc' w]
    apply hout
    apply base_disjoint
    intro e
    exact he (base_inj hc' hc e)

/-- Straight-line code that writes the twelve words of a block in order, word `w` getting `val w`. The value may be
computed from words that are not yet overwritten. -/
theorem write12 (b : Nat) (m : Matrix) (hb : b + 12 ≤ m.size) (val : Fin 12 → U64) (stmt : Fin 12 → Matrix → Res Matrix)
    (hs : ∀ (j : Fin 12) (m' : Matrix), m'.size = m.size → (∀ i, (i < b ∨ b + j ≤ i) → m'[i]? = m[i]?) →
      stmt j m' = vset m' (b + j) (val j)) :
    (unroll12 stmt m).Sat (fun m' => m'.size = m.size ∧ (∀ w : Fin 12, m'[b + w]? = some (val w)) ∧
      ∀ i, (i < b ∨ b + 12 ≤ i) → m'[i]? = m[i]?) := by
  have := unroll12_sat (stmt := stmt)
    (fun j m' => m'.size = m.size ∧ (∀ w : Fin 12, w < j → m'[b + w]? = some (val w)) ∧
      ∀ i, (i < b ∨ b + j ≤ i) → m'[i]? = m[i]?) m ⟨rfl, fun w h => absurd h (Nat.not_lt_zero _), fun _ _ => rfl⟩ ?_
  · refine this.mono fun m' ⟨h1, h2, h3⟩ => ⟨h1, fun w => h2 w w.isLt, h3⟩
  · intro j m' ⟨h1, h2, h3⟩
    have hj := j.isLt
    rw [hs j m' h1 h3, vset_lt (by omega)]
    refine .pure ⟨by simp [h1], fun w hw => ?_, fun i hi => ?_⟩
    · rw [Array.getElem?_set]
      by_cases e : b + j.val = b + w.val
      · have : w = j := Fin.ext (by omega)
        subst this
        simp
      · rw [if_neg e]
        exact h2 w (by omega)
    · rw [Array.getElem?_set, if_neg (by omega)]
      exact h3 i (by omega)

/-- Straight-line code that xors twelve words into the state. -/
theorem absorb12 (s : State) (x : Block) (stmt : Fin 12 → State → Res State)
    (hs : ∀ (j : Fin 12) (s' : State), stmt j s' = pure (s'.set j (s'[j] ^^^ x[j]))) :
    unroll12 stmt s = pure (xorRate s x) := by
  have := unroll12_sat (stmt := stmt)
    (fun j s' => ∀ (i : Nat) (hi : i < 16), s'[i] = if h : i < 12 ∧ i < j then s[i] ^^^ x[i] else s[i]) s
    (fun i hi => by simp) ?_
  · obtain ⟨s', h1, h2⟩ := this
    rw [h1]
    congr 1
    apply Vector.ext
    intro i hi
    rw [h2 i hi]
    simp only [xorRate, Vector.getElem_ofFn, Fin.getElem_fin]
    by_cases h : i < 12
    · simp [h]
    · simp [h]
  · intro j s' h
    rw [hs j s']
    refine .pure fun i hi => ?_
    have hj := j.isLt
    have h' := h i hi
    rw [Vector.getElem_set]
    by_cases e : (j : Nat) = i
    · subst e
      rw [if_pos rfl, dif_pos ⟨hj, by omega⟩]
      rw [dif_neg (by omega)] at h'
      simp only [Fin.getElem_fin] at *
      rw [← h']
    · rw [if_neg e, h']
      by_cases h12 : i < 12 ∧ i < j
      · rw [dif_pos h12, dif_pos ⟨h12.1, by omega⟩]
      · rw [dif_neg h12, dif_neg (by omega)]

end Proofs.Lyra2

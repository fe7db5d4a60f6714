import Verif.Spec.Lyra2

/-! What the setup phase leaves does not depend on what the matrix held before. -/

namespace Proofs.Lyra2
open Spec.Lyra2

/-- The first `R` rows of two memories agree. -/
def Agree (R C : Nat) (M M' : Mem) : Prop := ∀ r, r < R → ∀ c, c < C → M r c = M' r c

/-- Two memories agree on row `r` at the columns `C - 1 - c`, `c < j`. -/
def AgreeRev (C r j : Nat) (M M' : Mem) : Prop := ∀ c, c < j → M r (C - 1 - c) = M' r (C - 1 - c)

theorem put_eq {M M' : Mem} {r c r' c' : Nat} {b : Block} (h : M r' c' = M' r' c') :
    put M r c b r' c' = put M' r c b r' c' := by
  unfold put; split
  · rfl
  · exact h

theorem put_same (M : Mem) (r c : Nat) (b : Block) : put M r c b r c = b := by
  unfold put; rw [if_pos ⟨rfl, rfl⟩]

theorem AgreeRev.put {C r j : Nat} {M M' : Mem} (h : AgreeRev C r j M M') (b : Block) :
    AgreeRev C r (j + 1) (put M r (C - 1 - j) b) (put M' r (C - 1 - j) b) := by
  intro c hc
  by_cases hj : c = j
  · subst hj; rw [put_same, put_same]
  · exact put_eq (h c (by omega))

theorem AgreeRev.put' {C r j : Nat} {M M' : Mem} (h : AgreeRev C r j M M') (r' c' : Nat) (b : Block) :
    AgreeRev C r j (Spec.Lyra2.put M r' c' b) (Spec.Lyra2.put M' r' c' b) := fun c hc => put_eq (h c hc)

theorem Agree.put {R C : Nat} {M M' : Mem} (h : Agree R C M M') (r c : Nat) (b : Block) :
    Agree R C (Spec.Lyra2.put M r c b) (Spec.Lyra2.put M' r c b) := fun r' hr c' hc => put_eq (h r' hr c' hc)

theorem Agree.extend {R C : Nat} {M M' : Mem} (h : Agree R C M M') (h' : AgreeRev C R C M M') : Agree (R + 1) C M M' := by
  intro r hr c hc
  by_cases e : r = R
  · subst e
    have := h' (C - 1 - c) (by omega)
    rwa [show C - 1 - (C - 1 - c) = c by omega] at this
  · exact h r (by omega) c hc

/-- A fold over the columns preserves a relation indexed by the number of columns done. -/
theorem foldl_range_rel {α β : Type} (P : Nat → α → β → Prop) (f : α → Nat → α) (g : β → Nat → β) (n : Nat) {a : α} {b : β}
    (h0 : P 0 a b) (step : ∀ j, j < n → ∀ a b, P j a b → P (j + 1) (f a j) (g b j)) :
    P n ((List.range n).foldl f a) ((List.range n).foldl g b) := by
  induction n with
  | zero => exact h0
  | succ n ih =>
    rw [List.range_succ, List.foldl_append, List.foldl_append]
    exact step n (by omega) _ _ (ih fun j hj => step j (by omega))

theorem row0_agree (C : Nat) (s : Sponge) (M M' : Mem) :
    (row0 C s M).1 = (row0 C s M').1 ∧ Agree 1 C (row0 C s M).2 (row0 C s M').2 := by
  have := foldl_range_rel (fun j (x y : Sponge × Mem) => x.1 = y.1 ∧ AgreeRev C 0 j x.2 y.2)
    (fun (s, M) c => (fρ s, put M 0 (C - 1 - c) (rate s))) (fun (s, M) c => (fρ s, put M 0 (C - 1 - c) (rate s))) C
    (a := (s, M)) (b := (s, M')) ⟨rfl, fun c hc => absurd hc (by omega)⟩ ?_
  · exact ⟨this.1, Agree.extend (fun r hr => absurd hr (by omega)) this.2⟩
  · rintro j hj ⟨s1, M1⟩ ⟨s2, M2⟩ ⟨h1, h2⟩
    dsimp only at h1 h2 ⊢
    subst h1
    exact ⟨rfl, h2.put _⟩

theorem row1_agree (C : Nat) {s s' : Sponge} {M M' : Mem} (hs : s = s') (h : Agree 1 C M M') :
    (row1 C s M).1 = (row1 C s' M').1 ∧ Agree 2 C (row1 C s M).2 (row1 C s' M').2 := by
  have := foldl_range_rel (fun j (x y : Sponge × Mem) => x.1 = y.1 ∧ Agree 1 C x.2 y.2 ∧ AgreeRev C 1 j x.2 y.2)
    (fun (s, M) c =>
      let s := fρ (xorRate s (M 0 c))
      (s, put M 1 (C - 1 - c) (bxor (M 0 c) (rate s))))
    (fun (s, M) c =>
      let s := fρ (xorRate s (M 0 c))
      (s, put M 1 (C - 1 - c) (bxor (M 0 c) (rate s)))) C
    (a := (s, M)) (b := (s', M')) ⟨hs, h, fun c hc => absurd hc (by omega)⟩ ?_
  · exact ⟨this.1, Agree.extend this.2.1 this.2.2⟩
  · rintro j hj ⟨s1, M1⟩ ⟨s2, M2⟩ ⟨h1, h2, h3⟩
    dsimp only at h1 h2 h3 ⊢
    subst h1
    rw [h2 0 (by omega) j hj]
    exact ⟨rfl, h2.put _ _ _, h3.put _⟩

theorem setupRow_agree {C prev rowStar row : Nat} (hp : prev < row) (hs : rowStar < row) {x y : Sponge × Mem}
    (h1 : x.1 = y.1) (h2 : Agree row C x.2 y.2) :
    (setupRow C prev rowStar row x).1 = (setupRow C prev rowStar row y).1 ∧
      Agree (row + 1) C (setupRow C prev rowStar row x).2 (setupRow C prev rowStar row y).2 := by
  have := foldl_range_rel (fun j (x y : Sponge × Mem) => x.1 = y.1 ∧ Agree row C x.2 y.2 ∧ AgreeRev C row j x.2 y.2)
    (setupCol C prev rowStar row) (setupCol C prev rowStar row) C
    (a := x) (b := y) ⟨h1, h2, fun c hc => absurd hc (by omega)⟩ ?_
  · exact ⟨this.1, Agree.extend this.2.1 this.2.2⟩
  · rintro j hj ⟨s1, M1⟩ ⟨s2, M2⟩ ⟨h1, h2, h3⟩
    unfold setupCol
    dsimp only at h1 h2 h3 ⊢
    subst h1
    rw [h2 prev hp j hj, h2 rowStar hs j hj]
    have e1 := h2.put row (C - 1 - j) (bxor (M2 prev j) (rate (fρ (xorRate s1 (badd (M2 prev j) (M2 rowStar j))))))
    have e2 := h3.put (bxor (M2 prev j) (rate (fρ (xorRate s1 (badd (M2 prev j) (M2 rowStar j))))))
    rw [e1 rowStar hs j hj]
    exact ⟨rfl, e1.put _ _ _, e2.put' _ _ _⟩

theorem setup_agree {R C : Nat} (hR : 2 ≤ R) (hstar : ∀ row, 2 ≤ row → setupStar row < row - 1) (s : Sponge) (M M' : Mem) :
    (setup R C s M).1 = (setup R C s M').1 ∧ Agree R C (setup R C s M).2 (setup R C s M').2 := by
  obtain ⟨a1, a2⟩ := row0_agree C s M M'
  obtain ⟨b1, b2⟩ := row1_agree C a1 a2
  have := foldl_range_rel (fun j (x y : Sponge × Mem) => x.1 = y.1 ∧ Agree (j + 2) C x.2 y.2)
    (fun sM i => setupRow C (i + 1) (setupStar (i + 2)) (i + 2) sM) (fun sM i => setupRow C (i + 1) (setupStar (i + 2)) (i + 2) sM)
    (R - 2) ⟨b1, b2⟩ (fun j hj x y ⟨h1, h2⟩ => setupRow_agree (by omega) (by have := hstar (j + 2) (by omega); omega) h1 h2)
  rw [show R - 2 + 2 = R by omega] at this
  exact this

end Proofs.Lyra2

import Verif.Proofs.SpongeInv
import Verif.Proofs.Trace

/-! Row operations run backwards: what they do to the pair of sponge state and matrix can be undone. -/

namespace Proofs.Lyra2
open Spec Spec.Lyra2 Proofs.Sponge

/-- Two memories agree on the rows satisfying `P`, in the columns below `C`. -/
def AgreeOn (P : Nat → Prop) (C : Nat) (M M' : Mem) : Prop := ∀ r, P r → ∀ c, c < C → M r c = M' r c

/-- Equal states, and memories that agree on the rows satisfying `P`. -/
def Same (P : Nat → Prop) (C : Nat) (x y : Sponge × Mem) : Prop := x.1 = y.1 ∧ AgreeOn P C x.2 y.2

theorem AgreeOn.mono {P Q : Nat → Prop} {C : Nat} {M M' : Mem} (h : AgreeOn P C M M') (hPQ : ∀ r, Q r → P r) : AgreeOn Q C M M' :=
  fun r hr c hc => h r (hPQ r hr) c hc

theorem fρ_injective : Function.Injective fρ := by
  have : fρ = Model.Lyra2.reduced_blake2b_lyra := funext fun v => (reduced_eq v).symm
  rw [this]
  exact reduced_bijective.1

theorem xor_cancel {w : Nat} {a b c : BitVec w} (h : a ^^^ c = b ^^^ c) : a = b := by
  have := congrArg (· ^^^ c) h
  simpa [BitVec.xor_assoc] using this

theorem xorRate_inj_left {s s' : Sponge} (b : Block) (h : xorRate s b = xorRate s' b) : s = s' := by
  apply Vector.ext
  intro i hi
  have := congrArg (fun v : Sponge => v[i]) h
  unfold xorRate at this
  simp only [Vector.getElem_ofFn] at this
  split at this
  · exact xor_cancel this
  · exact this

theorem bxor_cancel {x y z : Block} (h : bxor x z = bxor y z) : x = y := by
  apply Vector.ext
  intro i hi
  have := congrArg (fun v : Block => v[i]) h
  unfold bxor at this
  simp only [Vector.getElem_ofFn] at this
  exact xor_cancel this

theorem put_self (M : Mem) (r c : Nat) (b : Block) : put M r c b r c = b := if_pos ⟨rfl, rfl⟩
theorem put_of_ne (M : Mem) {r c r' c' : Nat} (b : Block) (h : ¬ (r' = r ∧ c' = c)) : put M r c b r' c' = M r' c' := if_neg h

/-- Undoing `M[r][c] := M[r][c] ⊕ b`. -/
theorem put_bxor_back {P : Nat → Prop} {C r c : Nat} {b : Block} {M M' : Mem}
    (h : AgreeOn P C (put M r c (bxor (M r c) b)) (put M' r c (bxor (M' r c) b))) : AgreeOn P C M M' := by
  intro r' hr' c' hc'
  have := h r' hr' c' hc'
  by_cases e : r' = r ∧ c' = c
  · obtain ⟨rfl, rfl⟩ := e
    rw [put_self, put_self] at this
    exact bxor_cancel this
  · rwa [put_of_ne _ _ e, put_of_ne _ _ e] at this

/-- Undoing a write to a row that does not matter. -/
theorem put_other_back {P : Nat → Prop} {C r c : Nat} {b b' : Block} {M M' : Mem} (hr : ¬ P r)
    (h : AgreeOn P C (put M r c b) (put M' r c b')) : AgreeOn P C M M' := by
  intro r' hr' c' hc'
  have := h r' hr' c' hc'
  have e : ¬ (r' = r ∧ c' = c) := fun e => hr (e.1 ▸ hr')
  rwa [put_of_ne _ _ e, put_of_ne _ _ e] at this

/-- Undoing the duplexing step, once the memories are known to agree. -/
theorem duplex_back {s s' : Sponge} {b b' : Block} (hb : b = b') (h : fρ (xorRate s b) = fρ (xorRate s' b')) : s = s' := by
  subst hb
  exact xorRate_inj_left _ (fρ_injective h)

theorem wanderCol_back {P : Nat → Prop} {C prev rowStar row c : Nat} (hc : c < C) (hp : P prev) (ha : P rowStar)
    {x y : Sponge × Mem} (h : Same P C (wanderCol prev rowStar row x c) (wanderCol prev rowStar row y c)) : Same P C x y := by
  obtain ⟨s, M⟩ := x
  obtain ⟨s', M'⟩ := y
  obtain ⟨h1, h2⟩ := h
  unfold wanderCol at h1 h2
  dsimp only at h1 h2
  rw [h1] at h2
  have h3 := put_bxor_back (put_bxor_back h2)
  exact ⟨duplex_back (by rw [h3 _ hp _ hc, h3 _ ha _ hc]) h1, h3⟩

theorem setupCol_back {P : Nat → Prop} {C prev rowStar row c : Nat} (hc : c < C) (hp : P prev) (ha : P rowStar) (hr : ¬ P row)
    {x y : Sponge × Mem} (h : Same P C (setupCol C prev rowStar row x c) (setupCol C prev rowStar row y c)) : Same P C x y := by
  obtain ⟨s, M⟩ := x
  obtain ⟨s', M'⟩ := y
  obtain ⟨h1, h2⟩ := h
  unfold setupCol at h1 h2
  dsimp only at h1 h2
  rw [h1] at h2
  have h3 := put_other_back hr (put_bxor_back h2)
  exact ⟨duplex_back (by rw [h3 _ hp _ hc, h3 _ ha _ hc]) h1, h3⟩

/-- Undoing a fold over the columns. -/
theorem foldl_back {P : Nat → Prop} {C : Nat} {g : Sponge × Mem → Nat → Sponge × Mem}
    (step : ∀ c, c < C → ∀ x y, Same P C (g x c) (g y c) → Same P C x y) (n : Nat) (hn : n ≤ C) {x y : Sponge × Mem}
    (h : Same P C ((List.range n).foldl g x) ((List.range n).foldl g y)) : Same P C x y := by
  induction n with
  | zero => exact h
  | succ n ih =>
    rw [List.range_succ, List.foldl_append, List.foldl_append] at h
    exact ih (by omega) (step n (by omega) _ _ h)

theorem wanderRowOp_back {P : Nat → Prop} {C prev rowStar row : Nat} (hp : P prev) (ha : P rowStar) {x y : Sponge × Mem}
    (h : Same P C ((List.range C).foldl (wanderCol prev rowStar row) x) ((List.range C).foldl (wanderCol prev rowStar row) y)) :
    Same P C x y :=
  foldl_back (fun _ hc _ _ h => wanderCol_back hc hp ha h) C le_rfl h

theorem setupRow_back {P : Nat → Prop} {C prev rowStar row : Nat} (hp : P prev) (ha : P rowStar) (hr : ¬ P row)
    {x y : Sponge × Mem} (h : Same P C (setupRow C prev rowStar row x) (setupRow C prev rowStar row y)) : Same P C x y :=
  foldl_back (fun _ hc _ _ h => setupCol_back hc hp ha hr h) C le_rfl h

/-- Undoing rows 2, 3, ... of the setup phase. -/
theorem setupRows_back {C : Nat} (n : Nat) {x y : Sponge × Mem}
    (h : Same (· < n + 2) C ((List.range n).foldl (fun sM i => setupRow C (i + 1) (setupStar (i + 2)) (i + 2) sM) x)
      ((List.range n).foldl (fun sM i => setupRow C (i + 1) (setupStar (i + 2)) (i + 2) sM) y)) : Same (· < 2) C x y := by
  induction n with
  | zero => exact h
  | succ n ih =>
    rw [List.range_succ, List.foldl_append, List.foldl_append] at h
    have hs := setupStar_lt (show 2 ≤ n + 2 by omega)
    refine ih (setupRow_back (P := (· < n + 2)) (by omega) (by omega) (by omega) ⟨h.1, h.2.mono fun r hr => by omega⟩)

theorem row1_back {C : Nat} {x y : Sponge × Mem} (h : Same (· < 2) C (row1 C x.1 x.2) (row1 C y.1 y.2)) : Same (· < 1) C x y := by
  refine foldl_back (P := (· < 1)) (g := fun (s, M) c =>
    let s := fρ (xorRate s (M 0 c))
    (s, put M 1 (C - 1 - c) (bxor (M 0 c) (rate s)))) (fun c hc x y h => ?_) C le_rfl ⟨h.1, h.2.mono fun r hr => by omega⟩
  obtain ⟨s, M⟩ := x
  obtain ⟨s', M'⟩ := y
  obtain ⟨h1, h2⟩ := h
  dsimp only at h1 h2
  have h3 := put_other_back (by omega) h2
  exact ⟨duplex_back (h3 0 (by omega) c hc) h1, h3⟩

theorem row0_back {C : Nat} {x y : Sponge × Mem} (h : (row0 C x.1 x.2).1 = (row0 C y.1 y.2).1) : x.1 = y.1 := by
  refine (foldl_back (P := fun _ => False) (C := C) (g := fun (s, M) c => (fρ s, put M 0 (C - 1 - c) (rate s)))
    (fun c hc x y h => ?_) C le_rfl (x := x) (y := y) ⟨h, fun _ hr => hr.elim⟩).1
  exact ⟨fρ_injective h.1, fun _ hr => hr.elim⟩

/-- Undoing the setup phase. -/
theorem setup_back {R C : Nat} (hR : 2 ≤ R) {s s' : Sponge} {M M' : Mem}
    (h : Same (· < R) C (setup R C s M) (setup R C s' M')) : s = s' := by
  have h1 : Same (· < 2) C (row1 C (row0 C s M).1 (row0 C s M).2) (row1 C (row0 C s' M').1 (row0 C s' M').2) := by
    refine setupRows_back (R - 2) ?_
    rw [Nat.sub_add_cancel hR]
    exact h
  exact row0_back (x := (s, M)) (y := (s', M')) (row1_back h1).1

/-- The matrix is determined by the array that represents it. -/
theorem Rep.agree_of_eq {R C : Nat} {m : Model.Lyra2.Matrix} {M M' : Mem} (h : Rep R C m M) (h' : Rep R C m M') :
    AgreeOn (· < R) C M M' := by
  intro r hr c hc
  apply Vector.ext
  intro w hw
  have := (h.2 r hr c hc ⟨w, hw⟩).symm.trans (h'.2 r hr c hc ⟨w, hw⟩)
  exact Option.some.inj this

end Proofs.Lyra2

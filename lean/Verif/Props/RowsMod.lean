import Verif.Props.Rows

/-! Properties C43, C44: `lyra2mod`, the variant used by `lyra2rev3`, row by row; and its `sum`. -/

namespace Props
open Rust Rust.Res Spec Spec.Lyra2
open Model.Lyra2mod (WanderVars wanderStep wanderBody)
open Proofs.Lyra2 (toNat_ofNat64)

theorem mod_shape_trace (p : Profile) {R C : U64} (hs : Shape R C) (τ : Nat) {v : WanderVars} (hv : PassStartMod R C v) :
    ∃ step vs w, (wanderStep p R τ).Returns step ∧ Rounds (wanderBody p R C (rowLen C) step) (v :: vs) w ∧
      (v :: vs).map WanderVars.row = (Order.mask R.toNat τ).map (BitVec.ofNat 64) ∧
      (∀ u ∈ v :: vs, ∃ y U, y < R.toNat ∧ Proofs.Lyra2.RepWM R.toNat C.toNat u y U) ∧ PassStartMod R C w := by
  obtain ⟨M, hM⟩ := Proofs.Lyra2.Rep.of_size hv.size
  have hV : Proofs.Lyra2.RepWM R.toNat C.toNat v 0 ⟨v.state, M, v.prev.toNat, v.rowa.toNat, v.index⟩ :=
    ⟨rfl, hM, (ofNat_toNat64 _).symm, hv.prev, hv.row, (ofNat_toNat64 _).symm, hv.rowa, rfl⟩
  have hstep := Proofs.Lyra2.wanderStep_ok p hs.rows hs.rows_lt τ
  obtain ⟨vs, w, h1, h2, h3, h4⟩ := Proofs.Lyra2.lyra2mod_trace p hs.bound hs.rows hs.cols τ hV
  rw [ofNat_toNat64] at hstep h1
  rw [ofNat_toNat64] at h1
  rw [← Proofs.Lyra2.mod_wanderStep] at hstep
  have hlt := hs.rows_lt
  exact ⟨_, vs, w, hstep, h1, h2, h3, h4.m.1, h4.row,
    by rw [h4.prev, toNat_ofNat64 (by have := h4.prev_lt; omega)]; exact h4.prev_lt,
    by rw [h4.rowa, toNat_ofNat64 (by have := h4.rowa_lt; omega)]; exact h4.rowa_lt⟩

theorem mod_pass_rows (p : Profile) {R C : U64} (hs : Shape R C) (τ : Nat) {v : WanderVars} (hv : PassStartMod R C v) :
    ∃ step vs w, (wanderStep p R τ).Returns step ∧ Rounds (wanderBody p R C (rowLen C) step) (v :: vs) w ∧
      (v :: vs).map (fun u => u.row.toNat) = Order.mask R.toNat τ := by
  obtain ⟨step, vs, w, h1, h2, h3, -, -⟩ := mod_shape_trace p hs τ hv
  refine ⟨step, vs, w, h1, h2, ?_⟩
  have hlt := hs.rows_lt
  have h3 := congrArg (List.map BitVec.toNat) h3
  rw [map_ofNat_toNat (fun r hr => by
    have := Proofs.Lyra2.orbit_lt (R := R.toNat) (by have := hs.rows; omega) _ _ (by have := hs.rows; omega) r hr
    omega)] at h3
  rw [← h3, List.map_map]; rfl

/-! ## C43 -/

/-- **C43** (i) With `n_rows = 2^j`, every pass of `lyra2mod` computes each row exactly once, in the order of `lyra2`
(C13). -/
theorem C43_pow2_order (p : Profile) (R C : U64) (hs : Shape R C) (j : Nat) (hR : R.toNat = 2 ^ j) (τ : Nat)
    (v : WanderVars) (hv : PassStartMod R C v) :
    ∃ step vs w, (wanderStep p R τ).Returns step ∧ Rounds (wanderBody p R C (rowLen C) step) (v :: vs) w ∧
      (v :: vs).map (fun u => u.row.toNat) =
        (List.range R.toNat).map (fun i => if τ % 2 = 1 then i * (R.toNat / 2 - 1) % R.toNat else (R.toNat - i) % R.toNat) ∧
      ((v :: vs).map (fun u => u.row.toNat)).Perm (List.range R.toNat) := by
  obtain ⟨step, vs, w, h1, h2, h3⟩ := mod_pass_rows p hs τ hv
  have hj := pow_two_le hs.rows hR
  refine ⟨step, vs, w, h1, h2, ?_, ?_⟩
  · rw [h3, hR]
    by_cases hp : τ % 2 = 1
    · rw [Proofs.Lyra2.mask_odd hj τ hp]
      simp only [if_pos hp]
    · rw [Proofs.Lyra2.mask_even hj τ (by omega)]
      simp only [if_neg hp]
  · rw [h3, hR]
    exact Proofs.Lyra2.mask_perm hj τ

/-- **C43** (ii) Every pass ends after at most `n_rows` rounds, whatever the row count, and leaves a state from which the
next pass can start. -/
theorem C43_pass_rounds (p : Profile) (R C : U64) (hs : Shape R C) (τ : Nat) (v : WanderVars) (hv : PassStartMod R C v) :
    ∃ step vs w, (wanderStep p R τ).Returns step ∧ Rounds (wanderBody p R C (rowLen C) step) (v :: vs) w ∧
      (v :: vs).length ≤ R.toNat ∧ (loop (wanderBody p R C (rowLen C) step) v).Returns w ∧ PassStartMod R C w := by
  obtain ⟨step, vs, w, h1, h2, h3, -, h5⟩ := mod_shape_trace p hs τ hv
  refine ⟨step, vs, w, h1, h2, ?_, Proofs.Lyra2.Rounds.loop h2 _ _ rfl, h5⟩
  have := congrArg List.length h3
  rw [List.length_map, List.length_map] at this
  rw [this]
  exact Proofs.Lyra2.orbit_length _ _ _

theorem pick_rev3_lt {R : Nat} (hR : 0 < R) (s : Sponge) (i : Blake2b.W) : (Pick.rev3 R s i).1 < R := by
  have h := Proofs.Lyra2.pick3_submask (R := R) s i
  have : (Pick.rev3 R s i).1 &&& (R - 1) ≤ R - 1 := Nat.and_le_right
  omega

/-- **C43** (iii) In every round `row`, `prev`, `row*` and the next `row*` (the word of the state with number
`state[index mod 16] mod 16`, masked with `n_rows - 1`) are below `n_rows`. -/
theorem C43_wander_rows (p : Profile) (R C : U64) (hs : Shape R C) (τ : Nat) (v : WanderVars) (hv : PassStartMod R C v) :
    ∃ step vs w, (wanderStep p R τ).Returns step ∧ Rounds (wanderBody p R C (rowLen C) step) (v :: vs) w ∧
      (∀ u ∈ v :: vs, u.row.toNat < R.toNat ∧ u.prev.toNat < R.toNat ∧ u.rowa.toNat < R.toNat ∧
        (Pick.rev3 R.toNat u.state u.index).1 < R.toNat) ∧ w.prev.toNat < R.toNat ∧ w.rowa.toNat < R.toNat := by
  obtain ⟨step, vs, w, h1, h2, -, h4, h5⟩ := mod_shape_trace p hs τ hv
  have hR := hs.rows
  have hR' := hs.rows_lt
  refine ⟨step, vs, w, h1, h2, fun u hu => ?_, h5.prev, h5.rowa⟩
  obtain ⟨y, U, hy, hU⟩ := h4 u hu
  have hp := hU.prev_lt
  have ha := hU.rowa_lt
  refine ⟨?_, ?_, ?_, pick_rev3_lt (by omega) _ _⟩
  · rw [hU.row, toNat_ofNat64 (by omega)]; exact hy
  · rw [hU.prev, toNat_ofNat64 (by omega)]; exact hp
  · rw [hU.rowa, toNat_ofNat64 (by omega)]; exact ha

/-- The start of the wandering phase of `lyra2mod::sum` meets the hypotheses. -/
example : Shape 4 4 ∧ (4 : U64).toNat = 2 ^ 2 ∧ PassStartMod 4 4
    { state := Vector.replicate 16 5, m := Array.replicate 192 9, prev := 3, row := 0, rowa := 1, index := 0 } :=
  ⟨⟨by decide, by decide, by unfold isizeMax; decide⟩, rfl, by simp, rfl, by decide, by decide⟩

/-! ## C44 -/

/-- **C44** (i) `lyra2mod::sum` returns 32 bytes for at most 743 bytes of input and panics beyond, in every profile. -/
theorem C44_sum_domain (p : Profile) (input : List U8) :
    (input.length ≤ 743 → ∃ out, (Model.Lyra2mod.sum p input).Returns out ∧ out.length = 32) ∧
    (743 < input.length → (Model.Lyra2mod.sum p input).Panics) := by
  constructor
  · intro h
    have := C20_lyra2mod_result p 32 1 4 4 input input ((accepts_sum _).2 h)
    exact ⟨_, this, ((C19_lyra2mod_domain 32 1 4 4 input input).2.2.2 p _ this).1⟩
  · intro h
    have hd := (C19_lyra2mod_domain 32 1 4 4 input input).2.1 fun ha => by
      have := (accepts_sum _).1 ha
      omega
    cases p with
    | debug => exact hd
    | release =>
      rcases C19_lyra2mod_profiles_agree 32 1 4 4 input input (by decide) with ⟨out, h1, -⟩ | ⟨-, h2⟩
      · obtain ⟨e, he⟩ := hd
        rw [he] at h1
        cases h1
      · exact h2

/-- **C44** (ii) Below 8 bytes all inputs of one length have the same result. -/
theorem C44_sum_short_collide (p : Profile) (a b : List U8) (h : a.length = b.length) (h8 : a.length < 8) :
    ∃ out, (Model.Lyra2mod.sum p a).Returns out ∧ (Model.Lyra2mod.sum p b).Returns out ∧ out.length = 32 := by
  obtain ⟨out, h1, h2⟩ := (C44_sum_domain p a).1 (by omega)
  have h3 := (C07_trailing_ignored p 32 1 4 4 [] a b [] a b (by simp) h8 h.symm (by simp) h8 h.symm).2
  exact ⟨out, h1, h3.symm.trans h1, h2⟩

example : (Model.Lyra2mod.sum .release (List.replicate 744 0)).Panics :=
  (C44_sum_domain _ _).2 (by rw [List.length_replicate]; decide)

end Props

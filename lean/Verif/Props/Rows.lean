import Verif.Props.Lyra2

/-! Properties C12 - C16, C40: which rows are read and written. -/

namespace Props
open Rust Rust.Res Spec Spec.Lyra2 Model.Lyra2
open Proofs.Lyra2 (toNat_ofNat64)

/-! ## C12 -/

/-- The loop variables of the setup phase when it is about to compute row `r`: those left by the loop over rows
`2, ..., r - 1` (src/lyra2.rs:414-526). -/
def setupAt (p : Profile) (C : U64) (s : State) (m : Matrix) (r : Nat) : Res SetupVars :=
  (fun x => x.2.2) <$> setupRows p (BitVec.ofNat 64 r) C (rowLen C) s m

theorem setupAt_eq (p : Profile) {R C : U64} (hs : Shape R C) (s : State) {m : Matrix}
    (hm : m.size = 12 * (R.toNat * C.toNat)) {r : Nat} (h2 : 2 ≤ r) (hr : r ≤ R.toNat) :
    setupAt p C s m r = pure (Proofs.Lyra2.setupVars r) := by
  obtain ⟨M, hM⟩ := Proofs.Lyra2.Rep.of_size hm
  have := Proofs.Lyra2.setupRows_prefix p hs.bound h2 hr hs.cols hM (s := s)
  rw [ofNat_toNat64] at this
  obtain ⟨x, hx, -, hv⟩ := this
  unfold setupAt rowLen
  rw [hx, ← hv]
  rfl

/-- **C12** (i) Row `r` is computed from row `r - 1` and from a row `r* < r - 1`. -/
theorem C12_setup_rows (p : Profile) (R C : U64) (hs : Shape R C) (s : State) (m : Matrix)
    (hm : m.size = 12 * (R.toNat * C.toNat)) (r : Nat) (h2 : 2 ≤ r) (hr : r ≤ R.toNat) :
    ∃ v, (setupAt p C s m r).Returns v ∧ v.row.toNat = r ∧ v.prev.toNat = r - 1 ∧ v.rowa.toNat < r - 1 := by
  have hlt := hs.rows_lt
  have hs' := Proofs.Lyra2.setupStar_lt h2
  refine ⟨_, setupAt_eq p hs s hm h2 hr, ?_⟩
  refine ⟨toNat_ofNat64 (by omega), toNat_ofNat64 (by omega), ?_⟩
  show (BitVec.ofNat 64 (setupStar r)).toNat < r - 1
  rw [toNat_ofNat64 (by omega)]
  exact hs'

theorem rowa_window (p : Profile) {R C : U64} (hs : Shape R C) {s : State} {m : Matrix}
    (hm : m.size = 12 * (R.toNat * C.toNat)) {j i : Nat} (hj : 1 ≤ j) (hR : 2 ^ j + i ≤ R.toNat) (hi : i < 2 ^ j)
    {v : SetupVars} (h : (setupAt p C s m (2 ^ j + i)).Returns v) : v.rowa.toNat = i * setupStep j % 2 ^ j := by
  have hlt := hs.rows_lt
  have hp : 2 ^ 1 ≤ 2 ^ j := Nat.pow_le_pow_right (by decide) hj
  have := Res.pure_inj ((setupAt_eq p hs s hm (by omega) hR).symm.trans h)
  subst this
  show (BitVec.ofNat 64 (setupStar (2 ^ j + i))).toNat = _
  have hlt : i * setupStep j % 2 ^ j < 2 ^ j := Nat.mod_lt _ (by positivity)
  rw [Proofs.Lyra2.setupStar_eq hi, toNat_ofNat64 (by omega)]

/-- **C12** (ii) Within a window `[w, 2w)`, `w = 2^j`, the revisited rows are pairwise different. -/
theorem C12_setup_distinct (p : Profile) (R C : U64) (hs : Shape R C) (s : State) (m : Matrix)
    (hm : m.size = 12 * (R.toNat * C.toNat)) (j r r' : Nat) (hj : 1 ≤ j)
    (hr : 2 ^ j ≤ r ∧ r < 2 ^ (j + 1) ∧ r < R.toNat) (hr' : 2 ^ j ≤ r' ∧ r' < 2 ^ (j + 1) ∧ r' < R.toNat)
    (v v' : SetupVars) (h : (setupAt p C s m r).Returns v) (h' : (setupAt p C s m r').Returns v')
    (e : v.rowa = v'.rowa) : r = r' := by
  rw [pow_succ] at hr hr'
  obtain ⟨i, rfl⟩ : ∃ i, r = 2 ^ j + i := ⟨r - 2 ^ j, by omega⟩
  obtain ⟨i', rfl⟩ : ∃ i', r' = 2 ^ j + i' := ⟨r' - 2 ^ j, by omega⟩
  have h1 := rowa_window p hs hm hj (by omega) (by omega) h
  have h2 := rowa_window p hs hm hj (by omega) (by omega) h'
  rw [e, h2] at h1
  rw [Proofs.Lyra2.odd_mul_inj (Proofs.Lyra2.setupStep_odd j) (by omega) (by omega) h1]

/-- **C12** (iii) A complete window `[w, 2w)` revisits every row below `w`. -/
theorem C12_setup_covers (p : Profile) (R C : U64) (hs : Shape R C) (s : State) (m : Matrix)
    (hm : m.size = 12 * (R.toNat * C.toNat)) (j x : Nat) (hj : 1 ≤ j) (hR : 2 ^ (j + 1) ≤ R.toNat) (hx : x < 2 ^ j) :
    ∃ r v, 2 ^ j ≤ r ∧ r < 2 ^ (j + 1) ∧ (setupAt p C s m r).Returns v ∧ v.rowa.toNat = x := by
  have hp : 0 < 2 ^ j := by positivity
  have hp1 : 2 ^ 1 ≤ 2 ^ j := Nat.pow_le_pow_right (by decide) hj
  rw [pow_succ] at hR ⊢
  -- an injective map of a finite set into itself is onto
  have hinj : Function.Injective (fun i : Fin (2 ^ j) => (⟨i * setupStep j % 2 ^ j, Nat.mod_lt _ hp⟩ : Fin (2 ^ j))) := by
    intro a b hab
    have := congrArg Fin.val hab
    exact Fin.ext (Proofs.Lyra2.odd_mul_inj (Proofs.Lyra2.setupStep_odd j) a.isLt b.isLt this)
  obtain ⟨i, hi⟩ := (Finite.injective_iff_surjective.mp hinj) ⟨x, hx⟩
  have hi := congrArg Fin.val hi
  have hlt := i.isLt
  have hret := setupAt_eq p hs s hm (r := 2 ^ j + i) (by omega) (by omega)
  refine ⟨2 ^ j + i, _, by omega, by omega, hret, ?_⟩
  rw [rowa_window p hs hm hj (by omega) i.isLt hret]
  exact hi

/-- Rows 4..7 revisit rows 0, 3, 2, 1. -/
example : (List.range 4).map (fun i => (setupStar (4 + i))) = [0, 3, 2, 1] := by decide
example (p : Profile) : ∃ v, (setupAt p 1 init_state (Array.replicate 96 0) 5).Returns v ∧ v.row = 5 ∧ v.prev = 4 ∧ v.rowa = 3 :=
  ⟨_, setupAt_eq p (R := 8) ⟨by decide, by decide, by unfold isizeMax; decide⟩ _ (by simp) (by decide) (by decide),
    by decide, by decide, by decide⟩

/-! ## C13 -/

theorem map_ofNat_toNat {l : List Nat} (h : ∀ r ∈ l, r < 2 ^ 64) : (l.map (BitVec.ofNat 64)).map BitVec.toNat = l := by
  rw [List.map_map]
  conv_rhs => rw [← List.map_id l]
  apply List.map_congr_left
  intro r hr
  exact toNat_ofNat64 (h r hr)

theorem pow_two_le {R j : Nat} (h : 3 ≤ R) (hj : R = 2 ^ j) : 2 ≤ j := by
  by_contra hc
  have : j = 0 ∨ j = 1 := by omega
  rcases this with rfl | rfl <;> omega

/-- The rows of a pass, in order. -/
theorem pass_rows (p : Profile) {R C : U64} (hs : Shape R C) (τ : Nat) {v : WanderVars} (hv : PassStart R C v) :
    ∃ step vs w, (wanderStep p R τ).Returns step ∧ Rounds (wanderBody p R C (rowLen C) step) (v :: vs) w ∧
      (v :: vs).map (fun u => u.row.toNat) = Order.mask R.toNat τ := by
  obtain ⟨step, vs, w, h1, h2, h3, -, -⟩ := shape_trace p hs τ hv
  refine ⟨step, vs, w, h1, h2, ?_⟩
  have hlt := hs.rows_lt
  have h3 := congrArg (List.map BitVec.toNat) h3
  rw [map_ofNat_toNat (fun r hr => by
    have := Proofs.Lyra2.orbit_lt (R := R.toNat) (by have := hs.rows; omega) _ _ (by have := hs.rows; omega) r hr
    omega)] at h3
  rw [← h3, List.map_map]; rfl

/-- **C13** With `n_rows = 2^j`, every pass computes each row exactly once: odd passes in the order
`i * (n_rows/2 - 1) mod n_rows`, even passes in the order `0, n_rows - 1, ..., 1`. -/
theorem C13_pow2_order (p : Profile) (R C : U64) (hs : Shape R C) (j : Nat) (hR : R.toNat = 2 ^ j) (τ : Nat)
    (v : WanderVars) (hv : PassStart R C v) :
    ∃ step vs w, (wanderStep p R τ).Returns step ∧ Rounds (wanderBody p R C (rowLen C) step) (v :: vs) w ∧
      (v :: vs).map (fun u => u.row.toNat) =
        (List.range R.toNat).map (fun i => if τ % 2 = 1 then i * (R.toNat / 2 - 1) % R.toNat else (R.toNat - i) % R.toNat) ∧
      ((v :: vs).map (fun u => u.row.toNat)).Perm (List.range R.toNat) := by
  obtain ⟨step, vs, w, h1, h2, h3⟩ := pass_rows p hs τ hv
  have hj := pow_two_le hs.rows hR
  refine ⟨step, vs, w, h1, h2, ?_, ?_⟩
  · rw [h3, hR]
    by_cases hp : τ % 2 = 1
    · rw [Proofs.Lyra2.mask_odd hj τ hp]
      simp only [if_pos hp]
    · rw [Proofs.Lyra2.mask_even hj τ (by omega)]
      simp only [if_neg hp]
  · rw [h3, hR]
    exact Proofs.Lyra2.mask_perm hj τ

/-- With 8 rows: 0, 3, 6, 1, 4, 7, 2, 5 and 0, 7, 6, 5, 4, 3, 2, 1. -/
example : Shape 8 8 ∧ Order.mask 8 1 = [0, 3, 6, 1, 4, 7, 2, 5] ∧ Order.mask 8 2 = [0, 7, 6, 5, 4, 3, 2, 1] :=
  ⟨⟨by decide, by decide, by unfold isizeMax; decide⟩, by decide, by decide⟩

/-! ## C14, C15 -/

/-- **C14** (i) A row `r` with `r AND (n_rows - 1) ≠ r` is never written by the wandering phase of `lyra2`: for every number
of passes and every state and matrix content at its start, the words of row `r` are the same at its end. -/
theorem C14_untouched (p : Profile) (T R C : U64) (hs : Shape R C) (v : WanderVars) (hv : PassStart R C v) :
    ∃ v', (Model.Lyra2.wander p T R C (rowLen C) v).Returns v' ∧
      ∀ r, r < R.toNat → r &&& (R.toNat - 1) ≠ r → ∀ i, InRow C r i → v'.m[i]? = v.m[i]? := by
  obtain ⟨V, hV⟩ := hv.repW
  obtain ⟨v', h1, h2⟩ := Proofs.Lyra2.wander_ok p hs.bound hs.rows hs.cols T hV
  rw [ofNat_toNat64, ofNat_toNat64] at h1
  refine ⟨v', h1, fun r hr hne i hi => ?_⟩
  refine hV.m.frame h2.m (Proofs.Lyra2.wander_frame (fun r => r &&& (R.toNat - 1) = r) _ _ ?_ ?_ _ _ _) hr hne hi
  · exact fun s w => Proofs.Lyra2.pick_submask s w
  · exact fun τ r h => Proofs.Lyra2.mask_submask τ r h

/-- The same for `lyra2mod`. -/
theorem C14_untouched_mod (p : Profile) (T R C : U64) (hs : Shape R C) (v : Model.Lyra2mod.WanderVars)
    (hv : PassStartMod R C v) :
    ∃ v', (Model.Lyra2mod.wander p T R C (rowLen C) v).Returns v' ∧
      ∀ r, r < R.toNat → r &&& (R.toNat - 1) ≠ r → ∀ i, InRow C r i → v'.m[i]? = v.m[i]? := by
  obtain ⟨M, hM⟩ := Proofs.Lyra2.Rep.of_size hv.size
  have hV : Proofs.Lyra2.RepWM R.toNat C.toNat v 0 ⟨v.state, M, v.prev.toNat, v.rowa.toNat, v.index⟩ :=
    ⟨rfl, hM, (ofNat_toNat64 _).symm, hv.prev, hv.row, (ofNat_toNat64 _).symm, hv.rowa, rfl⟩
  obtain ⟨v', h1, h2⟩ := Proofs.Lyra2.mod_wander_ok p hs.bound hs.rows hs.cols T hV
  rw [ofNat_toNat64, ofNat_toNat64] at h1
  refine ⟨v', h1, fun r hr hne i hi => ?_⟩
  refine hV.m.frame h2.m (Proofs.Lyra2.wander_frame (fun r => r &&& (R.toNat - 1) = r) _ _ ?_ ?_ _ _ _) hr hne hi
  · exact fun s w => Proofs.Lyra2.pick3_submask s w
  · exact fun τ r h => Proofs.Lyra2.mask_submask τ r h

/-- **C14** (ii) Unless `n_rows` is a power of two there is such a row. -/
theorem C14_exists_untouched (R : U64) (hR : 3 ≤ R.toNat) (h : ∀ j, R.toNat ≠ 2 ^ j) :
    ∃ r, r < R.toNat ∧ r &&& (R.toNat - 1) ≠ r :=
  Proofs.Lyra2.exists_not_submask (by omega) h

/-- **C14** (iii) The other rows are written: an even pass computes exactly the rows `r` with `r AND (n_rows - 1) = r`. -/
theorem C14_even_pass_rows (p : Profile) (R C : U64) (hs : Shape R C) (τ : Nat) (hτ : τ % 2 = 0)
    (v : WanderVars) (hv : PassStart R C v) :
    ∃ step vs w, (wanderStep p R τ).Returns step ∧ Rounds (wanderBody p R C (rowLen C) step) (v :: vs) w ∧
      ∀ r, r ∈ (v :: vs).map (fun u => u.row.toNat) ↔ r &&& (R.toNat - 1) = r := by
  obtain ⟨step, vs, w, h1, h2, h3⟩ := pass_rows p hs τ hv
  refine ⟨step, vs, w, h1, h2, fun r => ?_⟩
  rw [h3]
  exact ⟨Proofs.Lyra2.mask_submask τ r, Proofs.Lyra2.even_visits (by have := hs.rows; omega) τ hτ r⟩

/-- With 6 rows, rows 2 and 3 are never written; an even pass computes rows 0, 5, 4, 1. -/
example : Shape 6 1 ∧ (2 &&& (6 - 1) ≠ 2 ∧ 3 &&& (6 - 1) ≠ 3) ∧ Order.mask 6 2 = [0, 5, 4, 1] ∧ (∀ j, (6 : U64).toNat ≠ 2 ^ j) :=
  ⟨⟨by decide, by decide, by unfold isizeMax; decide⟩, by decide, by decide, fun j h => by
    have h' : 6 = 2 ^ j := h
    have : j < 3 := by
      by_contra hc
      have : 2 ^ 3 ≤ 2 ^ j := Nat.pow_le_pow_right (by decide) (by omega)
      omega
    interval_cases j <;> omega⟩

theorem mask_two_pow_succ {j : Nat} (hj : 1 ≤ j) {τ : Nat} (hτ : τ % 2 = 1) : Order.mask (2 ^ j + 1) τ = [0] := by
  have hp : 0 < 2 ^ (j - 1) := by positivity
  have he : 2 ^ j = 2 * 2 ^ (j - 1) := by
    obtain ⟨i, rfl⟩ : ∃ i, j = i + 1 := ⟨j - 1, by omega⟩
    rw [Nat.add_sub_cancel, pow_succ]; ring
  have h0 : Spec.Lyra2.maskNext (2 ^ j + 1) τ 0 = 0 := by
    unfold maskNext
    rw [if_pos hτ, Nat.zero_add, Nat.add_sub_cancel, show (2 ^ j + 1) / 2 - 1 = 2 ^ (j - 1) - 1 by omega]
    apply Nat.eq_of_testBit_eq
    intro i
    rw [Nat.testBit_and, Nat.testBit_two_pow, Nat.testBit_two_pow_sub_one, Nat.zero_testBit]
    by_cases h : j = i
    · subst h; simp
    · simp [h]
  unfold Order.mask orbit
  rw [if_pos h0]

/-- **C15** With `n_rows = 2^j + 1` an odd pass performs a single row operation. -/
theorem C15_single_row (p : Profile) (R C : U64) (hs : Shape R C) (j : Nat) (hR : R.toNat = 2 ^ j + 1) (τ : Nat)
    (hτ : τ % 2 = 1) (v : WanderVars) (hv : PassStart R C v) :
    ∃ step w, (wanderStep p R τ).Returns step ∧ Rounds (wanderBody p R C (rowLen C) step) [v] w := by
  obtain ⟨step, vs, w, h1, h2, h3⟩ := pass_rows p hs τ hv
  have hj : 1 ≤ j := by
    by_contra hc
    have : j = 0 := by omega
    subst this
    have := hs.rows
    omega
  rw [hR, mask_two_pow_succ hj hτ] at h3
  have hl := congrArg List.length h3
  rw [List.length_map, List.length_cons, List.length_singleton] at hl
  have : vs = [] := List.length_eq_zero_iff.mp (by omega)
  subst this
  exact ⟨step, w, h1, h2⟩

example : Shape 9 2 ∧ (9 : U64).toNat = 2 ^ 3 + 1 := ⟨⟨by decide, by decide, by unfold isizeMax; decide⟩, rfl⟩

/-! ## C16 -/

/-- The setup phase, from the absorbed state to the start of the wandering phase (src/lyra2.rs:344-526). -/
def setupPhase (p : Profile) (R C : U64) (l : I64) (s : State) (m : Matrix) : Res (State × Matrix × SetupVars) := do
  let (s, m) ← squeezeRow0 p C s m
  let (s, m) ← duplexRow1 p C l s m
  Model.Lyra2.setupRows p R C l s m

theorem setupPhase_ok (p : Profile) {R C : U64} (hs : Shape R C) (s : State) {m : Matrix}
    (hm : m.size = 12 * (R.toNat * C.toNat)) :
    (setupPhase p R C (rowLen C) s m).Sat (fun x =>
      Proofs.Lyra2.Rep2 R.toNat C.toNat (x.1, x.2.1) (setup R.toNat C.toNat s (fun _ _ => Vector.replicate 12 0)) ∧
        x.2.2 = Proofs.Lyra2.setupVars R.toNat) := by
  obtain ⟨M0, hM0⟩ := Proofs.Lyra2.Rep.of_size hm
  have hR := hs.rows
  obtain ⟨ha1, ha2⟩ := Proofs.Lyra2.setup_agree (R := R.toNat) (C := C.toNat) (by omega)
    (fun row h => Proofs.Lyra2.setupStar_lt h) s M0 (fun _ _ => Vector.replicate 12 0)
  unfold setupPhase
  have e1 := Proofs.Lyra2.squeezeRow0_ok p hs.bound hM0 (s := s) (by omega) hs.cols
  rw [ofNat_toNat64] at e1
  refine Sat.bind e1 fun x hx => ?_
  obtain ⟨s1, m1⟩ := x
  obtain ⟨h1, h2⟩ := hx
  dsimp only at h1 h2 ⊢
  have e2 := Proofs.Lyra2.duplexRow1_ok p hs.bound h2 (s := s1) (by omega) hs.cols
  rw [ofNat_toNat64] at e2
  refine Sat.bind e2 fun x hx => ?_
  obtain ⟨s2, m2⟩ := x
  obtain ⟨h3, h4⟩ := hx
  dsimp only at h3 h4 ⊢
  have e3 := Proofs.Lyra2.setupRows_ok p hs.bound (by omega) hs.cols (s := s2) h4
  rw [ofNat_toNat64, ofNat_toNat64] at e3
  refine e3.mono fun x hx => ?_
  obtain ⟨⟨h5, h6⟩, h7⟩ := hx
  subst h1 h3
  exact ⟨⟨h5.trans ha1, Proofs.Lyra2.Rep.agree h6 ha2⟩, h7⟩

/-- **C16** The matrix, the sponge state and the loop variables after setup do not depend on what the matrix held before. -/
theorem C16_setup_erases (p : Profile) (R C : U64) (hs : Shape R C) (s : State) (m m' : Matrix)
    (hm : m.size = 12 * (R.toNat * C.toNat)) (hm' : m'.size = 12 * (R.toNat * C.toNat)) :
    ∃ x, (setupPhase p R C (rowLen C) s m).Returns x ∧ (setupPhase p R C (rowLen C) s m').Returns x := by
  obtain ⟨⟨s1, m1, v1⟩, h1, ⟨a1, a2⟩, a3⟩ := setupPhase_ok p hs s hm
  obtain ⟨⟨s2, m2, v2⟩, h2, ⟨b1, b2⟩, b3⟩ := setupPhase_ok p hs s hm'
  have e1 : s1 = s2 := a1.trans b1.symm
  have e2 : m1 = m2 := a2.unique b2 fun _ _ _ _ => rfl
  have e3 : v1 = v2 := a3.trans b3.symm
  subst e1 e2 e3
  exact ⟨_, h1, h2⟩

example : ∃ x, (setupPhase .debug 3 1 (rowLen 1) init_state (Array.replicate 36 0)).Returns x ∧
    (setupPhase .debug 3 1 (rowLen 1) init_state (Array.replicate 36 0xffff)).Returns x :=
  C16_setup_erases .debug 3 1 ⟨by decide, by decide, by unfold isizeMax; decide⟩ _ _ _ (by simp) (by simp)

/-! ## C40 -/

/-- **C40** (i) In setup all rows are below `n_rows`. -/
theorem C40_setup_rows (p : Profile) (R C : U64) (hs : Shape R C) (s : State) (m : Matrix)
    (hm : m.size = 12 * (R.toNat * C.toNat)) (r : Nat) (h2 : 2 ≤ r) (hr : r < R.toNat) :
    ∃ v, (setupAt p C s m r).Returns v ∧ v.row.toNat < R.toNat ∧ v.prev.toNat < R.toNat ∧ v.rowa.toNat < R.toNat := by
  obtain ⟨v, h, h1, h2, h3⟩ := C12_setup_rows p R C hs s m hm r h2 (by omega)
  exact ⟨v, h, by omega, by omega, by omega⟩

/-- **C40** (ii) In every round of every pass of the wandering phase, `row`, `prev` and the next `row*` are below `n_rows`. -/
theorem C40_wander_rows (p : Profile) (R C : U64) (hs : Shape R C) (τ : Nat) (v : WanderVars) (hv : PassStart R C v) :
    ∃ step vs w, (wanderStep p R τ).Returns step ∧ Rounds (wanderBody p R C (rowLen C) step) (v :: vs) w ∧
      (∀ u ∈ v :: vs, u.row.toNat < R.toNat ∧ u.prev.toNat < R.toNat ∧ u.rowa.toNat < R.toNat ∧
        (u.state[0] &&& (R - 1)).toNat < R.toNat) ∧ w.prev.toNat < R.toNat ∧ w.rowa.toNat < R.toNat := by
  obtain ⟨step, vs, w, h1, h2, -, h4, h5⟩ := shape_trace p hs τ hv
  have hR := hs.rows
  have hR' := hs.rows_lt
  refine ⟨step, vs, w, h1, h2, fun u hu => ?_, h5.prev, h5.rowa⟩
  obtain ⟨y, U, hy, hU⟩ := h4 u hu
  have hp := hU.prev_lt
  have ha := hU.rowa_lt
  refine ⟨?_, ?_, ?_, ?_⟩
  · rw [hU.row, toNat_ofNat64 (by omega)]; exact hy
  · rw [hU.prev, toNat_ofNat64 (by omega)]; exact hp
  · rw [hU.rowa, toNat_ofNat64 (by omega)]; exact ha
  · have h1 : (R - 1).toNat = R.toNat - 1 := by
      rw [BitVec.toNat_sub_of_le (by rw [BitVec.le_def]; show 1 ≤ R.toNat; omega)]; rfl
    rw [BitVec.toNat_and, h1]
    have : u.state[0].toNat &&& (R.toNat - 1) ≤ R.toNat - 1 := Nat.and_le_right
    omega

/-- **C40** (iii) A row operation of either phase returns, keeps the size of the matrix, and writes only rows `row` and
`row*`. -/
theorem C40_row_operation_frame (p : Profile) (R C : U64) (hs : Shape R C) (prev rowa row : U64) (s : State) (m : Matrix)
    (hm : m.size = 12 * (R.toNat * C.toNat)) (hp : prev.toNat < R.toNat) (ha : rowa.toNat < R.toNat)
    (hr : row.toNat < R.toNat) :
    (∃ s' m', (duplexRow p C (rowLen C) prev rowa row s m).Returns (s', m') ∧ m'.size = m.size ∧
      ∀ r, r < R.toNat → r ≠ row.toNat → r ≠ rowa.toNat → ∀ i, InRow C r i → m'[i]? = m[i]?) ∧
    (∃ s' m', (duplexRowSetup p C (rowLen C) prev rowa row s m).Returns (s', m') ∧ m'.size = m.size ∧
      ∀ r, r < R.toNat → r ≠ row.toNat → r ≠ rowa.toNat → ∀ i, InRow C r i → m'[i]? = m[i]?) := by
  obtain ⟨M, hM⟩ := Proofs.Lyra2.Rep.of_size hm
  constructor
  · obtain ⟨⟨s', m'⟩, h1, h2, h3⟩ := Proofs.Lyra2.duplexRow_ok p hs.bound hM (s := s) hp ha hr hs.cols
    rw [ofNat_toNat64, ofNat_toNat64, ofNat_toNat64, ofNat_toNat64] at h1
    refine ⟨s', m', h1, by rw [h3.1, hm], fun r hr' h4 h5 i hi => ?_⟩
    exact hM.frame h3 (Proofs.Lyra2.wanderRowOp_frame _ _ _ _ _) hr' (by rintro (rfl | rfl) <;> contradiction) hi
  · obtain ⟨⟨s', m'⟩, h1, h2, h3⟩ := Proofs.Lyra2.duplexRowSetup_ok p hs.bound hM (s := s) hp ha hr hs.cols
    rw [ofNat_toNat64, ofNat_toNat64, ofNat_toNat64, ofNat_toNat64] at h1
    refine ⟨s', m', h1, by rw [h3.1, hm], fun r hr' h4 h5 i hi => ?_⟩
    exact hM.frame h3 (Proofs.Lyra2.setupRow_frame _ _ _ _ _) hr' (by rintro (rfl | rfl) <;> contradiction) hi

example : ∃ s' m', (duplexRow .debug 2 (rowLen 2) 4 1 3 init_state (Array.replicate 120 7)).Returns (s', m') ∧
    m'.size = 120 ∧ m'[0]? = some 7 := by
  have hs : Shape 5 2 := ⟨by decide, by decide, by unfold isizeMax; decide⟩
  obtain ⟨s', m', h1, h2, h3⟩ := (C40_row_operation_frame .debug 5 2 hs 4 1 3 init_state (Array.replicate 120 7) (by simp)
    (by decide) (by decide) (by decide)).1
  exact ⟨s', m', h1, by rw [h2]; simp, by
    rw [h3 0 (by decide) (by decide) (by decide) 0 ⟨by simp, by decide⟩]; simp⟩

end Props
